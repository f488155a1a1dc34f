import Verif.Base.Err
import Verif.Base.Dict
import Mathlib.Data.Int.Notation

/-!
# Python values as decoded from JSON and YAML
-/

set_option autoImplicit false

namespace Verif.ParamIO

/-- A dictionary key.  Only string keys are looked up; `other` stands for any hashable key that is not a
string (numbers, booleans, null, dates), numbered. -/
inductive Key
  | str (s : String)
  | other (n : ℕ)
  deriving DecidableEq, Repr

/-- A python value.  `F` is the type of floats.  `other` stands for objects of types that the code does not
know (e.g. YAML dates). -/
inductive Py (F : Type)
  | null
  | bool (b : Bool)
  | int (n : ℤ)
  | float (x : F)
  | str (s : String)
  | list (l : List (Py F))
  | tuple (l : List (Py F))
  | dict (d : List (Key × Py F))
  | other (n : ℕ)

/-- Python types used in schemas. -/
inductive Ty
  | str | int | float | dict | list
  deriving DecidableEq, Repr

variable {F : Type}

/-- `isinstance(v, t)`; `bool` is a subclass of `int`. -/
def Py.isInstance : Py F → Ty → Bool
  | .bool _, .int => true
  | .int _, .int => true
  | .float _, .float => true
  | .str _, .str => true
  | .list _, .list => true
  | .dict _, .dict => true
  | _, _ => false

/-- `isinstance(k, t)` for a dictionary key (only string keys are instances of a type tested here). -/
def Key.isInstance : Key → Ty → Bool
  | .str _, .str => true
  | _, _ => false

/-- `v[k]` for a string key. -/
def Py.getItem (v : Py F) (k : String) : Res (Py F) :=
  match v with
  | .dict d => match Dict.get? d (.str k) with
    | some x => .ok x
    | none => .error .keyError
  | _ => .error .typeError

/-- `tuple(v)`, as the list of items. -/
def Py.items (v : Py F) : Res (List (Py F)) :=
  match v with
  | .list l => .ok l
  | .tuple l => .ok l
  | .str s => .ok (s.toList.map fun c => .str (String.singleton c))
  | .dict d => .ok (d.map fun p => match p.1 with | .str s => .str s | .other n => .other n)
  | _ => .error .typeError

end Verif.ParamIO
