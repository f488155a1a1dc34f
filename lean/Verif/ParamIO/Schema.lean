import Verif.ParamIO.Value

/-!
# Model of schema validation, orthority/common.py:164-220 `validate_collection`
-/

set_option autoImplicit false

namespace Verif.ParamIO

mutual
/-- A schema: `anyKey t s` is `{t: s}` with a type `t` as only key, `fields` a dictionary with string keys,
`list` a list, `ty` a type, `tys` a tuple of types, `val` a string value, `any` is `None`. -/
inductive Schema
  | anyKey (t : Ty) (s : Schema)
  | fields (fs : Fields)
  | list (ss : Schemas)
  | ty (t : Ty)
  | tys (ts : List Ty)
  | val (s : String)
  | any

inductive Fields
  | nil
  | cons (k : String) (s : Schema) (fs : Fields)

inductive Schemas
  | nil
  | cons (s : Schema) (ss : Schemas)
end

def Fields.ofList : List (String × Schema) → Fields
  | [] => .nil
  | p :: l => .cons p.1 p.2 (Fields.ofList l)

def Schemas.ofList : List Schema → Schemas
  | [] => .nil
  | s :: l => .cons s (Schemas.ofList l)

def Schemas.length : Schemas → ℕ
  | .nil => 0
  | .cons _ ss => ss.length + 1

variable {F : Type}

/-- One check after the other: the first error is raised. -/
def andThen (r q : Res Unit) : Res Unit :=
  match r with
  | .error e => .error e
  | .ok () => q

/-- Run a check on each item, stopping at the first error (a python `for` loop). -/
def forEach {α : Type} (f : α → Res Unit) : List α → Res Unit
  | [] => .ok ()
  | a :: l => andThen (f a) (forEach f l)

mutual
/-- orthority/common.py:164-220 `validate_collection`.  Schema values of number type (line 211) are not
used by the library and left out. -/
def validate : Schema → Py F → Res Unit
  | .anyKey t s, v =>
    match v with
    | .dict d =>
      forEach (fun p => if ¬ Key.isInstance p.1 t then .error .typeError else validate s p.2) d
    | _ => .error .valueError
  | .fields fs, v =>
    match v with
    | .dict d => match fs with
      | .nil => .error .indexError
      | .cons k s fs => match Dict.get? d (.str k) with
        | none => .error .keyError
        | some x => andThen (validate s x) (validateFields fs d)
    | _ => .error .valueError
  | .list ss, v =>
    match v with
    | .list l => match ss with
      | .nil => .error .valueError
      | .cons s .nil => if l.length = 0 then .error .valueError else forEach (validate s) l
      | .cons s ss =>
        if l.length = 0 then .error .valueError
        else if l.length ≠ ss.length + 1 then .error .valueError
        else match l with
          | [] => .ok ()
          | x :: l => andThen (validate s x) (validateZip ss l)
    | _ => .error .valueError
  | .ty t, v => if ¬ v.isInstance t then .error .typeError else .ok ()
  | .tys ts, v => if ¬ ts.any (fun t => v.isInstance t) then .error .typeError else .ok ()
  | .val s, v => match v with
    | .str s' => if s' = s then .ok () else .error .valueError
    | _ => .error .valueError
  | .any, _ => .ok ()

/-- The loop over the schema keys, orthority/common.py:188-192. -/
def validateFields : Fields → List (Key × Py F) → Res Unit
  | .nil, _ => .ok ()
  | .cons k s fs, d => match Dict.get? d (.str k) with
    | none => .error .keyError
    | some x => andThen (validate s x) (validateFields fs d)

/-- The loop over pairs of schema and list items, orthority/common.py:201-202. -/
def validateZip : Schemas → List (Py F) → Res Unit
  | .nil, _ => .ok ()
  | .cons s ss, l => match l with
    | [] => .ok ()
    | x :: l => andThen (validate s x) (validateZip ss l)
end

end Verif.ParamIO
