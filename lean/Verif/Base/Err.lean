/-!
# Python exceptions as values

Every python function that can raise is modelled as a function into `Except PyErr`.  Only the class of
the exception is kept: messages are not modelled.
-/

set_option autoImplicit false

namespace Verif

/-- Exception classes that the modelled code can raise.  `paramError`, `crsMissingError`, `crsError`,
`cameraInitError` and `orthorityError` are the classes of orthority/errors.py:15-33; `cvError` is
`cv2.error`; the others are python or rasterio built in classes. -/
inductive PyErr
  | valueError | typeError | keyError | indexError | attributeError | stopIteration
  | zeroDivisionError | osError | fileExistsError | fileNotFoundError | runtimeError
  | windowError | crsError | rasterioError | badParameter | missingParameter | clickException
  | orthorityError | paramError | crsMissingError | cameraInitError | cvError
  deriving DecidableEq, Repr

/-- Result of a python call that may raise. -/
abbrev Res (α : Type _) := Except PyErr α

instance {α : Type _} [DecidableEq α] : DecidableEq (Res α) := fun a b =>
  match a, b with
  | .error x, .error y => if h : x = y then isTrue (h ▸ rfl) else isFalse (fun h' => h (by cases h'; rfl))
  | .ok x, .ok y => if h : x = y then isTrue (h ▸ rfl) else isFalse (fun h' => h (by cases h'; rfl))
  | .error _, .ok _ => isFalse (fun h => by cases h)
  | .ok _, .error _ => isFalse (fun h => by cases h)

theorem Res.ok_bind {α β : Type} (a : α) (f : α → Res β) : ((Except.ok a : Res α) >>= f) = f a := rfl

theorem Res.error_bind {α β : Type} (e : PyErr) (f : α → Res β) :
    ((Except.error e : Res α) >>= f) = .error e := rfl

end Verif
