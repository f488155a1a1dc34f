import Mathlib.Algebra.Field.Defs
import Mathlib.Tactic.Common

/-!
# Numbers with NaN

Floating point numbers are modelled as elements of a field together with one value `nan` for everything that is
not finite.  Rounding is not modelled.  Division by zero, which gives inf or NaN in numpy, gives `nan`.
-/

set_option autoImplicit false

namespace Verif

inductive Fl (K : Type)
  | nan
  | val (x : K)
  deriving DecidableEq

namespace Fl

variable {K : Type}

def map₂ (f : K → K → K) : Fl K → Fl K → Fl K
  | val x, val y => val (f x y)
  | _, _ => nan

instance [Add K] : Add (Fl K) := ⟨map₂ (· + ·)⟩
instance [Sub K] : Sub (Fl K) := ⟨map₂ (· - ·)⟩
instance [Mul K] : Mul (Fl K) := ⟨map₂ (· * ·)⟩

def div [Field K] [DecidableEq K] : Fl K → Fl K → Fl K
  | val x, val y => if y = 0 then nan else val (x / y)
  | _, _ => nan

instance [Field K] [DecidableEq K] : Div (Fl K) := ⟨div⟩

def isNan : Fl K → Bool
  | nan => true
  | val _ => false

@[simp] theorem val_add [Add K] (x y : K) : val x + val y = val (x + y) := rfl
@[simp] theorem val_sub [Sub K] (x y : K) : val x - val y = val (x - y) := rfl
@[simp] theorem val_mul [Mul K] (x y : K) : val x * val y = val (x * y) := rfl
theorem val_div [Field K] [DecidableEq K] (x y : K) :
    val x / val y = if y = 0 then nan else val (x / y) := rfl
@[simp] theorem nan_add [Add K] (x : Fl K) : nan + x = nan := by cases x <;> rfl
@[simp] theorem add_nan [Add K] (x : Fl K) : x + nan = nan := by cases x <;> rfl
@[simp] theorem nan_sub [Sub K] (x : Fl K) : nan - x = nan := by cases x <;> rfl
@[simp] theorem sub_nan [Sub K] (x : Fl K) : x - nan = nan := by cases x <;> rfl
@[simp] theorem nan_mul [Mul K] (x : Fl K) : nan * x = nan := by cases x <;> rfl
@[simp] theorem mul_nan [Mul K] (x : Fl K) : x * nan = nan := by cases x <;> rfl
@[simp] theorem nan_div [Field K] [DecidableEq K] (x : Fl K) : nan / x = nan := by cases x <;> rfl
@[simp] theorem div_nan [Field K] [DecidableEq K] (x : Fl K) : x / nan = nan := by cases x <;> rfl
@[simp] theorem isNan_nan : (nan : Fl K).isNan = true := rfl
@[simp] theorem isNan_val (x : K) : (val x).isNan = false := rfl

end Fl

end Verif
