import Verif.Base.Err
import Mathlib.Data.List.Basic

/-!
# C100: GCP cameras from dictionaries

`GcpCamera` takes "GCPs as a sequence of `GroundControlPoint` objects or dictionaries" (orthority/camera.py:520-521).
-/

set_option autoImplicit false

namespace Verif.RpcCam.GcpInit

/-! ## Model -/

/-- `rasterio.control.GroundControlPoint`. -/
structure Point (V : Type) where
  row : V
  col : V
  x : V
  y : V
  z : Option V
  deriving DecidableEq

/-- `GroundControlPoint.__init__(row=None, col=None, x=None, y=None, z=None, ...)` (rasterio/control.py): row, column, x and y
are required.  `id` and `info` are left out. -/
def newPoint {V : Type} (row col x y z : Option V) : Res (Point V) :=
  match row, col, x, y with
  | some row, some col, some x, some y => .ok ⟨row, col, x, y, z⟩
  | _, _, _, _ => .error .valueError

/-- An item of the `gcps` argument: an object, or a dictionary `d`. -/
inductive Item (V D : Type)
  | point (p : Point V)
  | dict (d : D)

/-- A value of Python that an attribute can hold: a number or a dictionary. -/
inductive Any (K D : Type)
  | num (x : K)
  | dict (d : D)
  deriving DecidableEq

/-- orthority/camera.py:531: one GCP.  A dictionary is passed as the first argument (`row`). -/
def toPoint {K D : Type} : Item (Any K D) D → Res (Point (Any K D))
  | .point p => .ok p
  | .dict d => newPoint (some (.dict d)) none none none none

/-- orthority/camera.py:524-531 `GcpCamera.__init__`: the GCPs of the camera. -/
def init {K D : Type} (gcps : List (Item (Any K D) D)) : Res (List (Point (Any K D))) := gcps.mapM toPoint

/-! ## Theorems -/

/-- C100, in part: GCPs that are objects are used as they are.  Missing: dictionaries (`C100_dict_fails`). -/
theorem C100_objects_partial {K D : Type} (ps : List (Point (Any K D))) : init (ps.map Item.point) = .ok ps := by
  unfold init
  induction ps with
  | nil => rfl
  | cons p ps ih =>
    rw [List.map_cons, List.mapM_cons, ih]
    rfl

/-- C100 fails: whatever its items, a dictionary among the GCPs is a `ValueError`. -/
theorem C100_dict_fails {K D : Type} (gcps : List (Item (Any K D) D)) (d : D) (h : .dict d ∈ gcps) : init gcps = .error .valueError := by
  unfold init
  induction gcps with
  | nil => simp at h
  | cons g gcps ih =>
    rw [List.mapM_cons]
    cases g with
    | dict e => rfl
    | point p =>
      rw [ih (by simpa using h)]
      rfl

/-- The hypothesis is met, by the documented call. -/
example : init (K := Int) (D := List (String × Int)) [.point ⟨.num 1, .num 2, .num 24, .num (-33), none⟩,
    .dict [("row", 1), ("col", 2), ("x", 24), ("y", -33)]] = .error .valueError :=
  C100_dict_fails _ _ (by simp; rfl)

end Verif.RpcCam.GcpInit
