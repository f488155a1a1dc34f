import Verif.Common.Model
import Mathlib.Algebra.Order.Floor.Semiring
import Mathlib.Tactic.LinearCombination
import Mathlib.Tactic.NormNum
import Mathlib.Tactic.Linarith
import Mathlib.Tactic.FieldSimp
import Mathlib.Tactic.Push

/-!
# C09 to C13: helper functions of orthority/common.py
-/

set_option autoImplicit false
set_option linter.unusedSectionVars false

namespace Verif.Common

section Windows
variable {K : Type} [Field K] [LinearOrder K] [IsStrictOrderedRing K] [FloorRing K]

/-! ## C09 -/

/-- The integer window `iw` covers the window `w` grown by `e` (rows, columns) pixels on each side. -/
structure Covers (iw : IWin) (w : RWin K) (e : ℤ × ℤ) : Prop where
  left : (iw.colOff : K) ≤ w.colOff - e.2
  right : w.colOff + w.width + e.2 ≤ (iw.colOff + iw.width : ℤ)
  top : (iw.rowOff : K) ≤ w.rowOff - e.1
  bottom : w.rowOff + w.height + e.1 ≤ (iw.rowOff + iw.height : ℤ)

/-- One integer window lies inside another. -/
structure IWin.Inside (a b : IWin) : Prop where
  left : b.colOff ≤ a.colOff
  right : a.colOff + a.width ≤ b.colOff + b.width
  top : b.rowOff ≤ a.rowOff
  bottom : a.rowOff + a.height ≤ b.rowOff + b.height

theorem floor_add_ceil_fract (x y : K) : ⌊x⌋ + ⌈y + Int.fract x⌉ = ⌈y + x⌉ := by
  have : y + x = (y + Int.fract x) + (⌊x⌋ : ℤ) := by
    rw [Int.fract]; ring
  rw [this, Int.ceil_add_intCast]
  ring

/-- C09: `expand_window_to_grid` covers the grown window and lies inside every integer window that does. -/
theorem C09_expand_least (w : RWin K) (e : ℤ × ℤ) :
    Covers (expandWindowToGrid w e) w e ∧
    ∀ iw : IWin, Covers iw w e → (expandWindowToGrid w e).Inside iw := by
  have hr : (expandWindowToGrid w e).colOff + (expandWindowToGrid w e).width =
      ⌈w.colOff + w.width + e.2⌉ := by
    simp only [expandWindowToGrid]
    rw [floor_add_ceil_fract]
    congr 1
    ring
  have hb : (expandWindowToGrid w e).rowOff + (expandWindowToGrid w e).height =
      ⌈w.rowOff + w.height + e.1⌉ := by
    simp only [expandWindowToGrid]
    rw [floor_add_ceil_fract]
    congr 1
    ring
  refine ⟨⟨Int.floor_le _, ?_, Int.floor_le _, ?_⟩, fun iw h => ⟨?_, ?_, ?_, ?_⟩⟩
  · rw [hr]; exact Int.le_ceil _
  · rw [hb]; exact Int.le_ceil _
  · exact Int.le_floor.2 h.left
  · rw [hr]; exact Int.ceil_le.2 h.right
  · exact Int.le_floor.2 h.top
  · rw [hb]; exact Int.ceil_le.2 h.bottom

/-- C09: a window that is on the grid already is returned as it is. -/
theorem C09_expand_grid (iw : IWin) :
    expandWindowToGrid (K := K) ⟨iw.colOff, iw.rowOff, iw.width, iw.height⟩ (0, 0) = iw := by
  simp [expandWindowToGrid]

/-- C09: the size is positive for a window of positive size, and for no growth it is less than two pixels
larger than the window. -/
theorem C09_expand_size (w : RWin K) (hw : 0 < w.width) (hh : 0 < w.height) :
    0 < (expandWindowToGrid w (0, 0)).width ∧ 0 < (expandWindowToGrid w (0, 0)).height ∧
    ((expandWindowToGrid w (0, 0)).width : K) < w.width + 2 ∧
    ((expandWindowToGrid w (0, 0)).height : K) < w.height + 2 := by
  simp only [expandWindowToGrid, Int.cast_zero, mul_zero, add_zero, sub_zero]
  have f1 := Int.fract_nonneg w.colOff
  have f2 := Int.fract_lt_one w.colOff
  have f3 := Int.fract_nonneg w.rowOff
  have f4 := Int.fract_lt_one w.rowOff
  refine ⟨Int.ceil_pos.2 (by linarith), Int.ceil_pos.2 (by linarith), ?_, ?_⟩
  · have := Int.ceil_lt_add_one (w.width + Int.fract w.colOff)
    linarith
  · have := Int.ceil_lt_add_one (w.height + Int.fract w.rowOff)
    linarith

example : expandWindowToGrid (K := ℚ) ⟨3 / 2, -1 / 4, 2, 5 / 2⟩ (0, 1) = ⟨0, -1, 5, 4⟩ := by
  decide +kernel

/-! ## C10 -/

/-- Central meridian of a UTM zone in degrees. -/
def centralMeridian (zone : ℤ) : ℤ := 6 * zone - 183

/-- C10: the EPSG code is that of a zone 1 to 60, north for latitudes from zero up and south otherwise,
and the longitude, taken modulo 360 degrees, lies in the six degree strip of the zone: it is at most three
degrees west, and less than three degrees east, of the central meridian. -/
theorem C10_utm_zone (lat lon : K) : ∃ zone : ℤ, 1 ≤ zone ∧ zone ≤ 60 ∧
    (0 ≤ lat → utmEpsg lat lon = 32600 + zone) ∧ (lat < 0 → utmEpsg lat lon = 32700 + zone) ∧
    ∃ k : ℤ, (centralMeridian zone : K) - 3 ≤ lon - 360 * k ∧ lon - 360 * k < centralMeridian zone + 3 := by
  set f := ⌊(lon + 180) / 6⌋ with hf
  refine ⟨f % 60 + 1, ?_, ?_, ?_, ?_, f / 60, ?_, ?_⟩
  · have := Int.emod_nonneg f (b := 60) (by norm_num); omega
  · have := Int.emod_lt_of_pos f (b := 60) (by norm_num); omega
  · intro h; simp only [utmEpsg, ge_iff_le, h, if_true, ← hf]
  · intro h; simp only [utmEpsg, ge_iff_le, not_le.2 h, if_false, ← hf]
  · have h1 := Int.floor_le ((lon + 180) / 6)
    rw [← hf] at h1
    have h2 : ((f % 60 : ℤ) : K) + 60 * ((f / 60 : ℤ) : K) = f := by
      exact_mod_cast Int.emod_add_mul_ediv f 60
    rw [le_div_iff₀ (by norm_num)] at h1
    unfold centralMeridian
    push_cast
    linarith
  · have h1 := Int.lt_floor_add_one ((lon + 180) / 6)
    rw [← hf] at h1
    have h2 : ((f % 60 : ℤ) : K) + 60 * ((f / 60 : ℤ) : K) = f := by
      exact_mod_cast Int.emod_add_mul_ediv f 60
    rw [div_lt_iff₀ (by norm_num)] at h1
    unfold centralMeridian
    push_cast
    linarith

/-- C10: the code has period 360 degrees in longitude. -/
theorem C10_utm_periodic (lat lon : K) (k : ℤ) : utmEpsg lat (lon + 360 * k) = utmEpsg lat lon := by
  have : (lon + 360 * k + 180) / 6 = (lon + 180) / 6 + ((60 * k : ℤ) : K) := by
    push_cast; ring
  unfold utmEpsg
  rw [this, Int.floor_add_intCast]
  simp

/-- C10: the code depends on the latitude only through the hemisphere. -/
theorem C10_utm_hemisphere (lat lon : K) :
    utmEpsg lat lon = utmEpsg 0 lon + if 0 ≤ lat then 0 else 100 := by
  unfold utmEpsg
  by_cases h : (0 : K) ≤ lat
  · simp [h]
  · simp only [ge_iff_le, h, if_false, le_refl, if_true]
    omega

example : utmEpsg (K := ℚ) (-34) (185 / 10) = 32734 ∧ utmEpsg (K := ℚ) 1 180 = 32601 ∧
    utmEpsg (K := ℚ) 1 (-180) = 32601 ∧ utmEpsg (K := ℚ) 1 (1799 / 10) = 32660 := by decide +kernel

end Windows

/-! ## C11 -/

section Dtypes
variable {K : Type} [Field K] [LinearOrder K] [IsStrictOrderedRing K] [FloorRing K]

/-- The integers that the type holds: 8 and 16 bits without and 16 bits with a sign. -/
def Holds : Dt → ℤ → Prop
  | .uint8, n => 0 ≤ n ∧ n < 2 ^ 8
  | .uint16, n => 0 ≤ n ∧ n < 2 ^ 16
  | .int16, n => -2 ^ 15 ≤ n ∧ n < 2 ^ 15
  | _, _ => False

/-- The value is one that an array of the type can hold. -/
def Fits (d : Dt) : Val K → Prop
  | .int n => Holds d n
  | _ => d = .float32 ∨ d = .float64

/-- `n` is the nearest value of the integer type `d` to `x`; when two are nearest it is the even one. -/
def NearestInt (d : Dt) (x : K) (n : ℤ) : Prop :=
  Holds d n ∧ ∀ m : ℤ, Holds d m → m ≠ n → |x - n| < |x - m| ∨ (|x - n| = |x - m| ∧ n % 2 = 0)

theorem holds_iff (d : Dt) (n : ℤ) : Holds d n ↔ d.isInt = true ∧ d.lo ≤ n ∧ n ≤ d.hi := by
  cases d <;> simp only [Holds, Dt.isInt, Dt.lo, Dt.hi, Bool.false_eq_true, false_and, true_and] <;> omega

theorem isFloat_iff (d : Dt) : (d = .float32 ∨ d = .float64) ↔ d.isInt = false := by
  cases d <;> simp [Dt.isInt]

/-- `NearestInt` in terms of the limits that the code uses. -/
theorem nearestInt_iff (d : Dt) (hd : d.isInt = true) (x : K) (n : ℤ) : NearestInt d x n ↔
    (d.lo ≤ n ∧ n ≤ d.hi) ∧ ∀ m : ℤ, d.lo ≤ m → m ≤ d.hi → m ≠ n →
      |x - n| < |x - m| ∨ (|x - n| = |x - m| ∧ n % 2 = 0) := by
  simp only [NearestInt, holds_iff, hd, true_and, and_imp]

theorem rint_near (x : K) : |x - rint x| ≤ 1 / 2 ∧ (|x - rint x| = 1 / 2 → rint x % 2 = 0) := by
  have h0 := Int.fract_nonneg x
  have h1 := Int.fract_lt_one x
  have hx : x = ⌊x⌋ + Int.fract x := (Int.floor_add_fract x).symm
  unfold rint
  split_ifs with a b c
  · have : x - (⌊x⌋ : ℤ) = Int.fract x := rfl
    rw [this, abs_of_nonneg h0]
    exact ⟨a.le, fun e => absurd e a.ne⟩
  · have : x - ((⌊x⌋ + 1 : ℤ) : K) = Int.fract x - 1 := by push_cast; unfold Int.fract; ring
    rw [this, abs_of_nonpos (by linarith)]
    exact ⟨by linarith, fun e => by linarith⟩
  · have : x - (⌊x⌋ : ℤ) = Int.fract x := rfl
    rw [this, abs_of_nonneg h0]
    exact ⟨not_lt.1 b, fun _ => c⟩
  · have : x - ((⌊x⌋ + 1 : ℤ) : K) = Int.fract x - 1 := by push_cast; unfold Int.fract; ring
    rw [this, abs_of_nonpos (by linarith)]
    exact ⟨by linarith, fun _ => by omega⟩

theorem nearest_clip (d : Dt) (hi : d.isInt = true) (hd : d.lo ≤ d.hi) (x : K) (r : ℤ) (h1 : |x - r| ≤ 1 / 2)
    (h2 : |x - r| = 1 / 2 → r % 2 = 0) (he : r < d.lo ∨ d.hi < r ∨ d.lo ≤ r ∧ r ≤ d.hi) :
    NearestInt d x (min (max r d.lo) d.hi) := by
  rw [nearestInt_iff d hi]
  have hb := abs_le.1 h1
  rcases he with h | h | h
  · rw [max_eq_right h.le, min_eq_left hd]
    refine ⟨⟨le_rfl, hd⟩, fun m hm1 _ hne => Or.inl ?_⟩
    have hm : d.lo + 1 ≤ m := by omega
    have hr : r + 1 ≤ d.lo := by omega
    have hmK : (d.lo : K) + 1 ≤ m := by exact_mod_cast hm
    have hrK : (r : K) + 1 ≤ d.lo := by exact_mod_cast hr
    rw [abs_of_nonpos (by linarith), abs_of_nonpos (by linarith)]
    linarith
  · rw [max_eq_left (by omega), min_eq_right h.le]
    refine ⟨⟨hd, le_rfl⟩, fun m _ hm2 hne => Or.inl ?_⟩
    have hm : m + 1 ≤ d.hi := by omega
    have hr : d.hi + 1 ≤ r := by omega
    have hmK : (m : K) + 1 ≤ d.hi := by exact_mod_cast hm
    have hrK : (d.hi : K) + 1 ≤ r := by exact_mod_cast hr
    rw [abs_of_nonneg (by linarith), abs_of_nonneg (by linarith)]
    linarith
  · rw [max_eq_left h.1, min_eq_left h.2]
    refine ⟨h, fun m _ _ hne => ?_⟩
    have h3 : (1 : K) ≤ |(r : K) - m| := by
      rw [← Int.cast_sub, ← Int.cast_abs]
      have : 1 ≤ |r - m| := Int.one_le_abs (by omega)
      exact_mod_cast this
    have h4 : |(r : K) - m| ≤ |x - r| + |x - m| := by
      have : (r : K) - m = (x - m) - (x - r) := by ring
      rw [this]
      have := abs_sub (x - (m : K)) (x - r)
      linarith
    rcases lt_or_eq_of_le h1 with h5 | h5
    · left; linarith
    · rcases lt_or_eq_of_le (show |x - (r : K)| ≤ |x - m| by linarith) with h6 | h6
      · exact Or.inl h6
      · exact Or.inr ⟨h6, h2 h5⟩

theorem wrap_of_range {d : Dt} {n : ℤ} (h1 : d.lo ≤ n) (h2 : n ≤ d.hi) : wrap d n = n := by
  unfold wrap
  rw [Int.emod_eq_of_lt (by omega) (by omega)]
  omega

theorem wrap_range (d : Dt) (n : ℤ) (h : d.lo ≤ d.hi) : d.lo ≤ wrap d n ∧ wrap d n ≤ d.hi := by
  unfold wrap
  have h1 := Int.emod_nonneg (n - d.lo) (b := d.hi - d.lo + 1) (by omega)
  have h2 := Int.emod_lt_of_pos (n - d.lo) (b := d.hi - d.lo + 1) (by omega)
  omega

theorem Dt.lo_le_hi (d : Dt) : d.lo ≤ d.hi := by cases d <;> decide

theorem trunc_intCast (n : ℤ) : trunc (n : K) = n := by
  unfold trunc
  split_ifs <;> simp

theorem convert_fin_int (env : CastEnv K) (src dst : Dt) (hs : src.isInt = false) (hd : dst.isInt = true)
    (x : K) : convertDtype env src dst (.fin x) = .int (min (max (rint x) dst.lo) dst.hi) := by
  have hne : src ≠ dst := by rintro rfl; rw [hs] at hd; cases hd
  have hc : canCastSafe src dst = false := by
    cases src <;> cases dst <;> first | rfl | (revert hs hd; decide)
  have hmm : min (max ((rint x : ℤ) : K) (dst.lo : K)) (dst.hi : K) =
      ((min (max (rint x) dst.lo) dst.hi : ℤ) : K) := by push_cast; rfl
  have hle := dst.lo_le_hi
  simp only [convertDtype, hc, hs, hd, rangeExceeds, roundVal, clipVal, astype, hne]
  simp only [Bool.not_false, Bool.and_self, if_true, Bool.true_or, if_false]
  rw [hmm, trunc_intCast, wrap_of_range]
  · omega
  · omega

/-- C11: a finite floating point value becomes the nearest value of the integer type, ties to even. -/
theorem C11_float_to_int (env : CastEnv K) (src dst : Dt) (hs : src.isInt = false) (hd : dst.isInt = true)
    (x : K) : ∃ n, convertDtype env src dst (.fin x) = .int n ∧ NearestInt dst x n := by
  refine ⟨_, convert_fin_int env src dst hs hd x, ?_⟩
  exact nearest_clip dst hd dst.lo_le_hi x (rint x) (rint_near x).1 (rint_near x).2 (by omega)

theorem convert_inf_int (env : CastEnv K) (src dst : Dt) (hs : src.isInt = false) (hd : dst.isInt = true)
    (neg : Bool) : convertDtype env src dst (.inf neg) = .int (if neg then dst.lo else dst.hi) := by
  have hne : src ≠ dst := by rintro rfl; rw [hs] at hd; cases hd
  have hc : canCastSafe src dst = false := by
    cases src <;> cases dst <;> first | rfl | (revert hs hd; decide)
  have hle := dst.lo_le_hi
  simp only [convertDtype, hc, hs, hd, rangeExceeds, roundVal, clipVal, astype, hne]
  simp only [Bool.not_false, Bool.and_self, if_true, Bool.true_or, if_false]
  cases neg
  · simp only [Bool.false_eq_true, if_false]
    rw [trunc_intCast, wrap_of_range hle le_rfl]
  · simp only [if_true]
    rw [trunc_intCast, wrap_of_range le_rfl hle]

theorem convert_int_int (env : CastEnv K) (src dst : Dt) (hd : dst.isInt = true)
    (n : ℤ) (hn : Fits (K := K) src (.int n)) : convertDtype env src dst (.int n) = .int (min (max n dst.lo) dst.hi) := by
  obtain ⟨hs, h1, h2⟩ := (holds_iff _ _).1 hn
  have hle := dst.lo_le_hi
  have hsafe : (!canCastSafe src dst && dst.isInt && rangeExceeds src dst) = false →
      dst.lo ≤ src.lo ∧ src.hi ≤ dst.hi := by
    revert hs hd
    cases src <;> cases dst <;> decide
  have hw : wrap dst (min (max n dst.lo) dst.hi) = min (max n dst.lo) dst.hi :=
    wrap_of_range (by omega) (by omega)
  unfold convertDtype
  simp only [hs, Bool.not_true, Bool.and_false, Bool.false_and, Bool.false_eq_true, if_false]
  by_cases hx : (!canCastSafe src dst && dst.isInt && rangeExceeds src dst) = true
  · rw [if_pos hx]
    have hne : src ≠ dst := by
      rintro rfl
      revert hx
      cases src <;> decide
    simp only [hne, if_false, clipVal, astype, hd, if_true, hw]
  · have hr := hsafe (by simpa using hx)
    rw [if_neg hx]
    have e : min (max n dst.lo) dst.hi = n := by omega
    rw [e] at hw ⊢
    split_ifs
    · rfl
    · simp only [astype, hd, if_true, hw]

/-- C11: infinities become the limits of the integer type. -/
theorem C11_inf_to_int (env : CastEnv K) (src dst : Dt) (hs : src.isInt = false) (hd : dst.isInt = true)
    (neg : Bool) : ∃ n, convertDtype env src dst (.inf neg) = .int n ∧ Holds dst n ∧ ∀ m, Holds dst m → if neg then n ≤ m else m ≤ n := by
  refine ⟨_, convert_inf_int env src dst hs hd neg, ?_, ?_⟩
  · rw [holds_iff]
    have := dst.lo_le_hi
    cases neg <;> simp [hd, this]
  · intro m hm
    rw [holds_iff] at hm
    cases neg
    · simpa using hm.2.2
    · simpa using hm.2.1

/-- C11: an integer of one integer type becomes the nearest value of another. -/
theorem C11_int_to_int (env : CastEnv K) (src dst : Dt) (hd : dst.isInt = true)
    (n : ℤ) (hn : Fits (K := K) src (.int n)) :
    ∃ m, convertDtype env src dst (.int n) = .int m ∧ NearestInt dst (n : K) m := by
  obtain ⟨hs, h1, h2⟩ := (holds_iff _ _).1 hn
  have hle := dst.lo_le_hi
  refine ⟨_, convert_int_int env src dst hd n hn, nearest_clip dst hd hle (n : K) n (by simp) (by intro h; norm_num at h) (by omega)⟩

/-- C11: NaN stays NaN between floating point types, and so do infinities. -/
theorem C11_nan_float (env : CastEnv K) (src dst : Dt) (hs : src.isInt = false) (hd : dst.isInt = false) :
    convertDtype env src dst .nan = .nan ∧ ∀ neg, convertDtype env src dst (.inf neg) = .inf neg := by
  cases src <;> cases dst <;> first | exact ⟨rfl, fun _ => rfl⟩ | simp [Dt.isInt] at hs hd

/-- C11: the result fits the destination type, whatever C makes of NaN. -/
theorem C11_fits (env : CastEnv K) (hf : ∀ x n, env.f32 x ≠ .int n) (src dst : Dt) (v : Val K)
    (hv : Fits src v) : Fits dst (convertDtype env src dst v) := by
  by_cases hd : dst.isInt = true
  · cases v with
    | int n =>
      rw [convert_int_int env src dst hd n hv]
      have := dst.lo_le_hi
      exact (holds_iff _ _).2 ⟨hd, by omega, by omega⟩
    | fin x =>
      have := dst.lo_le_hi
      rw [convert_fin_int env src dst ((isFloat_iff _).1 hv) hd x]
      exact (holds_iff _ _).2 ⟨hd, by omega, by omega⟩
    | nan =>
      replace hv := (isFloat_iff _).1 hv
      have hne : src ≠ dst := by rintro rfl; rw [show src.isInt = false from hv] at hd; cases hd
      have hc : canCastSafe src dst = false := by
        have hv : src.isInt = false := hv
        cases src <;> cases dst <;> first | rfl | (revert hv hd; decide)
      simp only [convertDtype, hne, if_false, hc]
      have : ∀ w : Val K, Fits dst (astype env dst w) := by
        intro w
        unfold astype
        rw [if_pos hd]
        cases w <;> exact (holds_iff _ _).2 ⟨hd, wrap_range dst _ dst.lo_le_hi⟩
      exact this _
    | inf neg =>
      rw [convert_inf_int env src dst ((isFloat_iff _).1 hv) hd neg]
      have := dst.lo_le_hi
      cases neg <;> exact (holds_iff _ _).2 ⟨hd, by simp [this], by simp [this]⟩
  · have hd'' : dst.isInt = false := by simpa using hd
    have hd' := (isFloat_iff _).2 hd''
    have : ∀ w : Val K, Fits dst (astype env dst w) := by
      intro w
      unfold astype
      rw [if_neg hd]
      cases w with
      | int n =>
        simp only
        split_ifs
        · cases h : env.f32 (n : K) with
          | int m => exact absurd h (hf _ _)
          | _ => exact hd'
        · exact hd'
      | fin x =>
        simp only
        split_ifs
        · cases h : env.f32 x with
          | int m => exact absurd h (hf _ _)
          | _ => exact hd'
        · exact hd'
      | nan => exact hd'
      | inf _ => exact hd'
    unfold convertDtype
    simp only [hd'', Bool.and_false, Bool.false_and, Bool.false_eq_true, if_false]
    split_ifs with h
    · exact h ▸ hv
    · exact this _

/-- C11: integers convert to floating point types exactly, when single precision holds every integer of up
to 24 bits. -/
theorem C11_int_to_float (env : CastEnv K) (hf : ∀ n : ℤ, |n| ≤ 2 ^ 24 → env.f32 (n : K) = .fin (n : K))
    (src dst : Dt) (hd : dst.isInt = false) (n : ℤ) (hn : Fits (K := K) src (.int n)) :
    convertDtype env src dst (.int n) = .fin (n : K) := by
  obtain ⟨hs, h1, h2⟩ := (holds_iff _ _).1 hn
  have hn' : |n| ≤ 2 ^ 24 := by
    rw [abs_le]
    cases src <;> simp only [Dt.isInt, Bool.false_eq_true, Dt.lo, Dt.hi] at hs h1 h2 <;> omega
  cases src <;> cases dst <;> simp only [Dt.isInt, Bool.false_eq_true, reduceCtorEq] at hs hd <;>
    first
    | exact hf n hn'
    | rfl

/-- An environment for examples: exact single precision, NaN becomes zero. -/
def demoEnv : CastEnv ℚ := ⟨.fin, fun _ _ => 0⟩

example : convertDtype demoEnv .float32 .uint8 (.fin (5 / 2)) = .int 2 ∧
    convertDtype demoEnv .float32 .uint8 (.fin (7 / 2)) = .int 4 ∧
    convertDtype demoEnv .float64 .int16 (.fin (-70000)) = .int (-32768) ∧
    convertDtype demoEnv .uint16 .int16 (.int 40000) = .int 32767 ∧
    convertDtype demoEnv .int16 .uint16 (.int (-5)) = .int 0 ∧
    convertDtype demoEnv .float32 .uint8 (.inf false) = .int 255 := by decide +kernel

end Dtypes

/-! ## C12 -/

section Profile
open Dict

variable {driver : String} {count height width : ℕ} {dtype : String} {compress : Option String}
  {writeMask : Option Bool} {opts : Dict String PVal} {p : Profile} {wm : Bool}

/-- What a successful call without creation options returns, key by key. -/
theorem create_default (h : createProfile driver count height width dtype compress writeMask [] = .ok (p, wm)) :
    ∃ dt drv c, Dt.parse dtype = .ok dt ∧ Driver.parse driver = .ok drv ∧
      (compress = none → c = if dt = .uint8 then .jpeg else .deflate) ∧
      (∀ s, compress = some s → Compress.parse s = .ok c) ∧
      (c = .jpeg → dt = .uint8 ∨ dt = .uint16) ∧
      wm = writeMask.getD (decide (c = .jpeg)) ∧
      p.get? "nodata" = some (if wm then .none else .nodata dt) ∧
      p.get? "compress" = some (.str c.value) ∧
      p.get? "dtype" = some (.str dt.name) ∧ p.get? "driver" = some (.str drv.value) ∧
      p.get? "count" = some (.nat count) ∧ p.get? "height" = some (.nat height) ∧
      p.get? "width" = some (.nat width) ∧
      p.get? "nbits" = (if c = .jpeg ∧ dt = .uint16 then some (.nat 12) else none) ∧
      p.get? "photometric" = (if drv = .gtiff ∧ c = .jpeg ∧ count = 3 then some (.str "ycbcr") else none) ∧
      p.get? "bigtiff" = some (.str "if_safer") ∧
      p.get? "tiled" = (if drv = .gtiff then some (.bool true) else none) ∧
      p.get? "blockxsize" = (if drv = .gtiff then some (.nat 512) else none) ∧
      p.get? "blockysize" = (if drv = .gtiff then some (.nat 512) else none) ∧
      p.get? "blocksize" = (if drv = .gtiff then none else some (.nat 512)) ∧
      p.get? "overviews" = (if drv = .gtiff then none else some (.str "force_use_existing")) := by
  unfold createProfile at h
  cases hdt : Dt.parse dtype with
  | error e => simp [hdt] at h
  | ok dt =>
    cases hdrv : Driver.parse driver with
    | error e => simp [hdt, hdrv] at h
    | ok drv =>
      simp only [hdt, hdrv, List.length_nil, if_true] at h
      cases hc : resolveCompress dt compress (initProfile drv count height width dt) with
      | error e => simp [hc] at h
      | ok cp =>
        obtain ⟨c, p1⟩ := cp
        simp only [hc, Except.ok.injEq, Prod.mk.injEq] at h
        have key : (compress = none → c = if dt = .uint8 then .jpeg else .deflate) ∧
            (∀ s, compress = some s → Compress.parse s = .ok c) ∧
            (c = .jpeg → dt = .uint8 ∨ dt = .uint16) ∧
            p1 = if c = .jpeg ∧ dt = .uint16 then (initProfile drv count height width dt).set "nbits" (.nat 12)
              else initProfile drv count height width dt := by
          unfold resolveCompress at hc
          cases compress with
          | none =>
            simp only [Except.ok.injEq, Prod.mk.injEq] at hc
            obtain ⟨rfl, rfl⟩ := hc
            refine ⟨fun _ => rfl, by simp, ?_, ?_⟩
            · cases dt <;> simp
            · cases dt <;> simp
          | some s =>
            simp only at hc
            cases hs : Compress.parse s with
            | error e => simp [hs] at hc
            | ok c' =>
              simp only [hs] at hc
              split_ifs at hc with h1 h2 h3
              · simp only [Except.ok.injEq, Prod.mk.injEq] at hc
                obtain ⟨rfl, rfl⟩ := hc
                exact ⟨by simp, by simpa using hs, fun _ => Or.inr h2, by simp [h1, h2]⟩
              · simp only [Except.ok.injEq, Prod.mk.injEq] at hc
                obtain ⟨rfl, rfl⟩ := hc
                exact ⟨by simp, by simpa using hs, fun _ => Or.inl (not_not.1 h3), by simp [h2]⟩
              · simp only [Except.ok.injEq, Prod.mk.injEq] at hc
                obtain ⟨rfl, rfl⟩ := hc
                exact ⟨by simp, by simpa using hs, fun e => absurd e h1, by simp [h1]⟩
        obtain ⟨k1, k2, k3, k4⟩ := key
        obtain ⟨hp, hwm⟩ := h
        refine ⟨dt, drv, c, rfl, rfl, k1, k2, k3, hwm.symm, ?_⟩
        rw [hwm] at hp
        subst hp
        subst k4
        cases drv <;> by_cases hj : c = .jpeg <;> by_cases h16 : dt = .uint16 <;> by_cases h3 : count = 3 <;>
          simp [hj, h16, h3, initProfile, update, get?_set, get?_cons, get?_nil, Driver.value]

/-- C12: nodata is set to none exactly when a mask is requested, and is otherwise that of the data type; with
or without creation options. -/
theorem C12_nodata_or_mask (h : createProfile driver count height width dtype compress writeMask opts = .ok (p, wm)) :
    ∃ dt, Dt.parse dtype = .ok dt ∧ p.get? "nodata" = some (if wm then .none else .nodata dt) := by
  cases opts with
  | nil =>
    obtain ⟨dt, drv, c, h1, h2, h3, h4, h5, h6, h7, -⟩ := create_default h
    exact ⟨dt, h1, h7⟩
  | cons o opts =>
    unfold createProfile at h
    cases hdt : Dt.parse dtype with
    | error e => simp [hdt] at h
    | ok dt =>
      cases hdrv : Driver.parse driver with
      | error e => simp [hdt, hdrv] at h
      | ok drv =>
        simp only [hdt, hdrv, List.length_cons, Nat.add_eq_zero_iff, one_ne_zero, and_false, if_false,
          Except.ok.injEq, Prod.mk.injEq] at h
        refine ⟨dt, rfl, ?_⟩
        obtain ⟨rfl, rfl⟩ := h
        rw [get?_set, if_pos rfl]

/-- C12: without creation options a mask is requested exactly when asked, or by default when the compression
in the profile is JPEG. -/
theorem C12_mask_default (h : createProfile driver count height width dtype compress writeMask [] = .ok (p, wm)) :
    wm = true ↔ writeMask = some true ∨ (writeMask = none ∧ p.get? "compress" = some (.str "jpeg")) := by
  obtain ⟨dt, drv, c, h1, h2, h3, h4, h5, h6, h7, h8, -⟩ := create_default h
  rw [h6, h8]
  cases writeMask with
  | none => cases c <;> simp [Compress.value]
  | some b => cases b <;> simp

/-- C12: without creation options, JPEG is used for `uint8`, or for `uint16` with 12 bits; with `compress`
given, that compression is used; by default `uint8` gets JPEG and the other types DEFLATE. -/
theorem C12_compress (h : createProfile driver count height width dtype compress writeMask [] = .ok (p, wm)) :
    (p.get? "compress" = some (.str "jpeg") →
      dtype = "uint8" ∨ (dtype = "uint16" ∧ p.get? "nbits" = some (.nat 12))) ∧
    (∀ s, compress = some s → p.get? "compress" = some (.str s)) ∧
    (compress = none → p.get? "compress" = some (.str (if dtype = "uint8" then "jpeg" else "deflate"))) := by
  obtain ⟨dt, drv, c, h1, h2, h3, h4, h5, h6, h7, h8, -, -, -, -, -, h9, -⟩ := create_default h
  have hname : dtype = dt.name := by
    unfold Dt.parse at h1
    split_ifs at h1 <;> cases h1 <;> assumption
  have h8nb : (dtype = "uint8") = (dt = .uint8) := by
    rw [hname]; cases dt <;> decide
  refine ⟨fun hj => ?_, fun s hs => ?_, fun hn => ?_⟩
  · have hc : c = .jpeg := by
      rw [h8] at hj
      cases c
      · rfl
      · simp [Compress.value] at hj
      · simp [Compress.value] at hj
    rcases h5 hc with e | e
    · left; rw [hname, e]; rfl
    · right
      rw [h9, if_pos ⟨hc, e⟩, hname, e]
      exact ⟨rfl, rfl⟩
  · rw [h8]
    have := h4 s hs
    unfold Compress.parse at this
    split_ifs at this with a b d <;> cases this <;> simp_all [Compress.value]
  · rw [h8, h3 hn]
    simp only [h8nb]
    split_ifs <;> rfl

/-- C12: size, band count, type and driver are those asked for. -/
theorem C12_size (h : createProfile driver count height width dtype compress writeMask [] = .ok (p, wm)) :
    p.get? "count" = some (.nat count) ∧ p.get? "height" = some (.nat height) ∧
    p.get? "width" = some (.nat width) ∧ p.get? "dtype" = some (.str dtype) ∧
    p.get? "driver" = some (.str driver) := by
  obtain ⟨dt, drv, c, h1, h2, h3, h4, h5, h6, h7, h8, h9, h10, h11, h12, h13, -⟩ := create_default h
  refine ⟨h11, h12, h13, ?_, ?_⟩
  · rw [h9]
    unfold Dt.parse at h1
    split_ifs at h1 <;> cases h1 <;> simp_all [Dt.name]
  · rw [h10]
    unfold Driver.parse at h2
    split_ifs at h2 <;> cases h2 <;> simp_all [Driver.value]

/-- C12: without creation options, both drivers have blocks of 512 pixels, GeoTIFF with YCbCr colours exactly for three bands of JPEG, and
COG with the existing overviews.  Twelve bits are exactly for JPEG with `uint16`. -/
theorem C12_layout (h : createProfile driver count height width dtype compress writeMask [] = .ok (p, wm)) :
    p.get? "bigtiff" = some (.str "if_safer") ∧
    (driver = "gtiff" → p.get? "tiled" = some (.bool true) ∧ p.get? "blockxsize" = some (.nat 512) ∧
      p.get? "blockysize" = some (.nat 512) ∧
      (p.get? "photometric" = some (.str "ycbcr") ↔ p.get? "compress" = some (.str "jpeg") ∧ count = 3)) ∧
    (driver = "cog" → p.get? "blocksize" = some (.nat 512) ∧ p.get? "overviews" = some (.str "force_use_existing") ∧
      p.get? "photometric" = none) ∧
    (p.get? "nbits" = some (.nat 12) ↔ p.get? "compress" = some (.str "jpeg") ∧ dtype = "uint16") ∧
    (driver = "gtiff" ∨ driver = "cog") := by
  obtain ⟨dt, drv, c, h1, h2, -, -, -, -, -, h8, -, -, -, -, -, h9, h10, h11, h12, h13, h14, h15, h16⟩ := create_default h
  have hd : driver = drv.value := by
    unfold Driver.parse at h2
    split_ifs at h2 <;> cases h2 <;> assumption
  have hn : dtype = dt.name := by
    unfold Dt.parse at h1
    split_ifs at h1 <;> cases h1 <;> assumption
  subst hd hn
  rw [h8, h9, h10, h11, h12, h13, h14, h15, h16]
  cases drv <;> cases c <;> cases dt <;> simp [Driver.value, Compress.value, Dt.name]

/-- C12: with creation options, each option is in the profile as given, except `nodata`, and no key other
than the size, type, driver, `bigtiff` and `nodata` is added. -/
theorem C12_creation_options (ho : Ok opts) (hne : opts ≠ [])
    (h : createProfile driver count height width dtype compress writeMask opts = .ok (p, wm)) :
    (∀ k v, opts.get? k = some v → k ≠ "nodata" → p.get? k = some v) ∧
    (∀ k, k ∉ ["driver", "dtype", "width", "height", "count", "bigtiff", "nodata"] →
      p.get? k = opts.get? k) := by
  unfold createProfile at h
  cases hdt : Dt.parse dtype with
  | error e => simp [hdt] at h
  | ok dt =>
    cases hdrv : Driver.parse driver with
    | error e => simp [hdt, hdrv] at h
    | ok drv =>
      simp only [hdt, hdrv, List.length_eq_zero_iff, hne, if_false, Except.ok.injEq, Prod.mk.injEq] at h
      obtain ⟨rfl, -⟩ := h
      refine ⟨fun k v hk hn => ?_, fun k hk => ?_⟩
      · rw [get?_set, if_neg (fun e => hn e.symm), get?_update _ _ ho, hk]
        rfl
      · simp only [List.mem_cons, List.not_mem_nil, or_false, not_or] at hk
        rw [get?_set, if_neg (fun e => hk.2.2.2.2.2.2 e.symm), get?_update _ _ ho]
        have : get? (initProfile drv count height width dt) k = none := by
          rw [get?_none]
          simp [initProfile]
          tauto
        rw [this, Option.or_none]

/-- C12: the only errors are `OrthorityError` and the `ValueError` of an unknown driver or compression; in
particular JPEG for a type other than `uint8` and `uint16` is refused. -/
theorem C12_errors (e : PyErr)
    (h : createProfile driver count height width dtype compress writeMask opts = .error e) :
    e = .orthorityError ∨ e = .valueError := by
  unfold createProfile at h
  cases hdt : Dt.parse dtype with
  | error e' =>
    simp only [hdt, Except.error.injEq] at h
    subst h
    unfold Dt.parse at hdt
    split_ifs at hdt
    left; simpa using hdt.symm
  | ok dt =>
    cases hdrv : Driver.parse driver with
    | error e' =>
      simp only [hdt, hdrv, Except.error.injEq] at h
      subst h
      unfold Driver.parse at hdrv
      split_ifs at hdrv
      right; simpa using hdrv.symm
    | ok drv =>
      simp only [hdt, hdrv] at h
      split_ifs at h
      cases hc : resolveCompress dt compress (initProfile drv count height width dt) with
      | ok cp => simp [hc] at h
      | error e' =>
        simp only [hc, Except.error.injEq] at h
        subst h
        unfold resolveCompress at hc
        cases compress with
        | none => simp at hc
        | some s =>
          simp only at hc
          cases hs : Compress.parse s with
          | error e'' =>
            simp only [hs, Except.error.injEq] at hc
            subst hc
            unfold Compress.parse at hs
            split_ifs at hs
            right; simpa using hs.symm
          | ok c =>
            simp only [hs] at hc
            split_ifs at hc
            left; simpa using hc.symm

/-- C12: JPEG is refused for the other types. -/
theorem C12_jpeg_refused (hd : dtype ≠ "uint8" ∧ dtype ≠ "uint16") :
    ∀ r, createProfile driver count height width dtype (some "jpeg") writeMask [] ≠ .ok r := by
  rintro ⟨p, wm⟩ h
  have h1 := C12_compress h
  rcases h1.1 (h1.2.1 _ rfl) with h2 | h2
  · exact hd.1 h2
  · exact hd.2 h2.1

/-- C12: with creation options, the default mask request does not follow the compression in use: DEFLATE
requested with creation options and `compress='jpeg'` (which is documented as ignored) asks for a mask, and
JPEG in the creation options does not. -/
theorem C12_mask_options_fails :
    (∃ p, createProfile "gtiff" 3 10 20 "uint8" (some "jpeg") none [("compress", .str "deflate")] = .ok (p, true) ∧
      p.get? "compress" = some (.str "deflate")) ∧
    (∃ p, createProfile "gtiff" 3 10 20 "uint8" none none [("compress", .str "jpeg")] = .ok (p, false) ∧
      p.get? "compress" = some (.str "jpeg")) :=
  ⟨⟨_, rfl, by decide⟩, ⟨_, rfl, by decide⟩⟩

example : ∃ p, createProfile "gtiff" 3 10 20 "uint8" none none [] = .ok (p, true) ∧
    p.get? "photometric" = some (.str "ycbcr") ∧ p.get? "nodata" = some .none := ⟨_, rfl, by decide⟩

example : ∃ p, createProfile "cog" 1 10 20 "uint16" (some "jpeg") (some false) [] = .ok (p, false) ∧
    p.get? "nbits" = some (.nat 12) ∧ p.get? "nodata" = some (.nodata .uint16) := ⟨_, rfl, by decide⟩

end Profile

/-! ## C13 -/

section Overviews

theorem floor_logb_two (n : ℕ) (hn : 1 ≤ n) : ⌊Real.logb 2 n⌋ = (Nat.log 2 n : ℤ) := by
  have h := Real.floor_logb_natCast (b := 2) (r := (n : ℝ)) (by positivity)
  norm_num at h
  exact h

theorem levels_eq {height width : ℕ} (hh : 1 ≤ height) (hw : 1 ≤ width) {mx : ℤ} {k : ℕ} :
    overviewLevels height width mx (2 ^ k) =
      (List.range (min mx ((Nat.log 2 (min height width) : ℤ) - k)).toNat).map fun m => 2 ^ (m + 1) := by
  unfold overviewLevels
  have h1 : ⌊min (Real.logb 2 height) (Real.logb 2 width)⌋ = (Nat.log 2 (min height width) : ℤ) := by
    rw [← floor_logb_two _ (by omega)]
    congr 1
    rcases le_total height width with h | h
    · rw [min_eq_left h, min_eq_left]
      exact Real.logb_le_logb_of_le (by norm_num) (by exact_mod_cast hh) (by exact_mod_cast h)
    · rw [min_eq_right h, min_eq_right]
      exact Real.logb_le_logb_of_le (by norm_num) (by exact_mod_cast hw) (by exact_mod_cast h)
  have h2 : ⌊Real.logb 2 ((2 ^ k : ℕ) : ℝ)⌋ = (k : ℤ) := by
    rw [floor_logb_two _ Nat.one_le_two_pow, Nat.log_pow (by norm_num)]
  rw [h1, h2]

/-- C13: for every image size, the levels built by `build_overviews` (with its defaults) are 2, 4, 8, ...
without gaps, at most eight; every overview has 256 pixels or more in its smaller dimension; and there are
fewer than eight only if one more would have less than 256. -/
theorem C13_overviews (height width : ℕ) (hh : 1 ≤ height) (hw : 1 ≤ width) :
    ∃ n : ℕ, overviewLevels height width 8 256 = (List.range n).map (fun m => 2 ^ (m + 1)) ∧ n ≤ 8 ∧
      (∀ l ∈ overviewLevels height width 8 256, 256 ≤ height / l ∧ 256 ≤ width / l) ∧
      (n < 8 → height / 2 ^ (n + 1) < 256 ∨ width / 2 ^ (n + 1) < 256) := by
  have he := levels_eq hh hw (mx := 8) (k := 8)
  set L := Nat.log 2 (min height width) with hL
  have hmin : min height width ≠ 0 := by omega
  rw [show (2 : ℕ) ^ 8 = 256 from rfl] at he
  refine ⟨_, he, by omega, ?_, ?_⟩
  · intro l hl
    rw [he] at hl
    obtain ⟨m, hm, rfl⟩ := List.mem_map.1 hl
    rw [List.mem_range] at hm
    have hm2 : m + 1 + 8 ≤ L := by omega
    have hp : 2 ^ (m + 1 + 8) ≤ min height width := Nat.pow_le_of_le_log hmin hm2
    rw [pow_add] at hp
    constructor
    · rw [Nat.le_div_iff_mul_le (by positivity)]; omega
    · rw [Nat.le_div_iff_mul_le (by positivity)]; omega
  · intro hn
    set n := (min (8 : ℤ) ((L : ℤ) - (8 : ℕ))).toNat with hnn
    have h1 : L < n + 1 + 8 := by omega
    have hp : min height width < 2 ^ (n + 1 + 8) := Nat.lt_pow_of_log_lt (by norm_num) h1
    rw [pow_add] at hp
    rcases Nat.lt_or_ge height width with h | h
    · left; rw [Nat.div_lt_iff_lt_mul (by positivity)]; omega
    · right; rw [Nat.div_lt_iff_lt_mul (by positivity)]; omega

/-- A 5000 x 3000 image gets levels 2, 4 and 8. -/
example : overviewLevels 5000 3000 8 256 = [2, 4, 8] := by
  have := levels_eq (height := 5000) (width := 3000) (by norm_num) (by norm_num) (mx := 8) (k := 8)
  rw [show (256 : ℕ) = 2 ^ 8 from rfl, this]
  decide +kernel

/-- C13: with a `min_level_pixels` that is not a power of two, an overview can be smaller than it: an image
of 600 pixels gets an overview of 300 pixels for a minimum of 500. -/
theorem C13_min_level_pixels_fails : ∃ height width minPix l : ℕ, 1 ≤ minPix ∧
    l ∈ overviewLevels height width 8 minPix ∧ height / l < minPix := by
  refine ⟨600, 600, 500, 2, by norm_num, ?_, by norm_num⟩
  unfold overviewLevels
  rw [min_self, floor_logb_two _ (by norm_num), floor_logb_two _ (by norm_num)]
  have h1 : Nat.log 2 600 = 9 := by decide +kernel
  have h2 : Nat.log 2 500 = 8 := by decide +kernel
  rw [h1, h2]
  decide

end Overviews

end Verif.Common
