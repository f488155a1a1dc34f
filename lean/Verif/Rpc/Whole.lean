import Verif.Rpc.Inverse
import Verif.Rpc.LeastSq
import Verif.ParamIO.RoundTrip
import Mathlib.Data.Int.Cast.Field

/-!
# C99: whole numbers

JSON, YAML and Python have integers and floats.  The schemas of GCP files (orthority/param_io.py:543-544) and RPC files
(418-425) accept both.  NumPy makes an array of integers from numbers that are all integers, and raises a `TypeError`
(`UFuncTypeError`) for an operation like `a /= b` when the result is of floats and `a` is an array of integers.

`K` is a field; integers are their images in it.  Not modelled: integers of more than 64 bits, and booleans.
-/

set_option autoImplicit false
set_option linter.unusedSectionVars false

namespace Verif.RpcCam.Whole

open Verif.ParamIO (Py)

variable {K : Type} [Field K] [DecidableEq K]

/-! ## Model -/

/-- A number of Python: an integer or a float. -/
inductive Num (K : Type)
  | int (n : ℤ)
  | float (x : K)

/-- The number. -/
def Num.val : Num K → K
  | .int n => n
  | .float x => x

def Num.isInt : Num K → Bool
  | .int _ => true
  | .float _ => false

/-- A ground control point, with its numbers as they were read. -/
structure GcpNum (K : Type) where
  ji : Num K × Num K
  xyz : Num K × Num K × Num K

def GcpNum.gcp (g : GcpNum K) : Gcp K := ⟨(g.ji.1.val, g.ji.2.val), (g.xyz.1.val, g.xyz.2.1.val, g.xyz.2.2.val)⟩

/-- `np.array` of the numbers `l` has integers (the array of no numbers has floats). -/
def intArray (l : List (Num K)) : Bool := l ≠ [] && l.all Num.isInt

def jis (gcps : List (GcpNum K)) : List (Num K) := gcps.flatMap fun g => [g.ji.1, g.ji.2]

def xyzs (gcps : List (GcpNum K)) : List (Num K) := gcps.flatMap fun g => [g.xyz.1, g.xyz.2.1, g.xyz.2.2]

/-- orthority/camera.py:64-69 `_validate_world_coords` and 450-489 `RpcCamera.world_to_pixel`: coordinates that are an array of
integers are refused, as they are not `float64`.  The array has one column at least. -/
def worldToPixelNum (warp : Option (K × K × K → Fl K × Fl K × Fl K)) (r : Rpc K) (pts : List (Num K × Num K × Num K)) :
    Res (List (Fl K × Fl K)) :=
  if intArray (pts.flatMap fun p => [p.1, p.2.1, p.2.2]) then .error .valueError
  else .ok (worldToPixel warp r (pts.map fun p => (.val p.1.val, .val p.2.1.val, .val p.2.2.val)))

/-- orthority/fit.py:49-130 `refine_rpc` (`Verif.RpcCam.refineRpc`), with the types of the arrays: `norm_ji = ji.T - (samp_off,
line_off)` has integers if all numbers are integers, and is then divided in place (fit.py:84-85); then the world coordinates go to a
camera without a CRS (fit.py:76, 93-94).  `sampOff` and `lineOff` are the numbers of `r` as they were read. -/
def refineNums (lstsq : List (K × K) → Tform K) (method : Method) (r : Rpc K) (sampOff lineOff : Num K)
    (gcps : List (GcpNum K)) : Res (Rpc K) :=
  if gcps.length < (match method with | .shift => 1 | .shiftDrift => 2) then .error .valueError
  else if intArray (jis gcps) && (sampOff.isInt && lineOff.isInt) then .error .typeError
  else match worldToPixelNum none r (gcps.map GcpNum.xyz) with
    | .error e => .error e
    | .ok _ => refineRpc lstsq method r (gcps.map GcpNum.gcp)

/-- The number of a value from a file. -/
def numOf : Py K → Option (Num K)
  | .int n => some (.int n)
  | .float x => some (.float x)
  | _ => none

/-- orthority/fit.py:89, 93: `gcp['ji']` and `gcp['xyz']` of a GCP from a file. -/
def ofRead (g : ParamIO.Gcp K) : Option (GcpNum K) :=
  match g.ji, g.xyz with
  | [j, i], [x, y, z] => do
    let j ← numOf j
    let i ← numOf i
    let x ← numOf x
    let y ← numOf y
    let z ← numOf z
    some ⟨(j, i), (x, y, z)⟩
  | _, _ => none

/-! ## Specification -/

/-- The GCP with the same numbers as floats. -/
def GcpNum.asFloats (g : GcpNum K) : GcpNum K :=
  ⟨(.float g.ji.1.val, .float g.ji.2.val), (.float g.xyz.1.val, .float g.xyz.2.1.val, .float g.xyz.2.2.val)⟩

/-! ## Proofs -/

theorem flatMap_xyz (gcps : List (GcpNum K)) :
    ((gcps.map GcpNum.xyz).flatMap fun p => [p.1, p.2.1, p.2.2]) = xyzs gcps := by
  simp [xyzs, List.flatMap_map]

theorem asFloats_gcp (g : GcpNum K) : g.asFloats.gcp = g.gcp := rfl

theorem intArray_false {l : List (Num K)} {a : Num K} (h : a ∈ l) (ha : a.isInt = false) : intArray l = false := by
  unfold intArray
  have : l.all Num.isInt = false := by
    rw [List.all_eq_false]
    exact ⟨a, h, by simp [ha]⟩
  simp [this]

theorem intArray_true {l : List (Num K)} (hne : l ≠ []) (h : ∀ a ∈ l, a.isInt = true) : intArray l = true := by
  unfold intArray
  simp only [Bool.and_eq_true, List.all_eq_true, decide_eq_true_eq]
  exact ⟨by simpa using hne, h⟩

theorem floats_refine (lstsq : List (K × K) → Tform K) (method : Method) (r : Rpc K) (s t : Num K) (gcps : List (GcpNum K)) :
    refineNums lstsq method r s t (gcps.map GcpNum.asFloats) = refineRpc lstsq method r (gcps.map GcpNum.gcp) := by
  have h1 : intArray (jis (gcps.map GcpNum.asFloats)) = false := by
    cases gcps with
    | nil => rfl
    | cons g l => exact intArray_false (a := .float g.ji.1.val) (by simp [jis, GcpNum.asFloats]) rfl
  have h2 : intArray (xyzs (gcps.map GcpNum.asFloats)) = false := by
    cases gcps with
    | nil => rfl
    | cons g l => exact intArray_false (a := .float g.xyz.1.val) (by simp [xyzs, GcpNum.asFloats]) rfl
  have h3 : (gcps.map GcpNum.asFloats).map GcpNum.gcp = gcps.map GcpNum.gcp := by
    rw [List.map_map]; rfl
  unfold refineNums worldToPixelNum
  simp only [flatMap_xyz, h1, h2, h3, List.length_map, Bool.false_and, Bool.false_eq_true, if_false]
  cases method <;> simp only [refineRpc, List.length_map] <;> split_ifs <;> rfl

theorem mapM_ofRead {α : Type} (f : α → ParamIO.Gcp K) (g : α → GcpNum K) (l : List α) (h : ∀ a, ofRead (f a) = some (g a)) :
    (l.map f).mapM ofRead = some (l.map g) := by
  induction l with
  | nil => rfl
  | cons a l ih => simp [List.mapM_cons, h, ih]

theorem read_one (file : String) (l : List (ParamIO.Gcp K)) (hne : l ≠ []) (hw : ∀ g ∈ l, g.WF) :
    ParamIO.readOtyGcps (ParamIO.writeGcps [(file, l)]) = .ok [(.str file, l)] := by
  rw [ParamIO.C19_gcps_round_trip_all [(file, l)] (by simp [Dict.Ok]) ?_ ?_ (by simp)]
  · rfl
  · intro p hp
    rw [List.mem_singleton.mp hp]
    exact hw
  · intro p hp
    rw [List.mem_singleton.mp hp]
    exact hne

theorem intArray_xyzs (gcps : List (GcpNum K)) (hne : gcps ≠ [])
    (h : ∀ g ∈ gcps, g.xyz.1.isInt = true ∧ g.xyz.2.1.isInt = true ∧ g.xyz.2.2.isInt = true) : intArray (xyzs gcps) = true := by
  refine intArray_true ?_ fun a ha => ?_
  · obtain ⟨g, hg⟩ := List.exists_mem_of_ne_nil gcps hne
    exact List.ne_nil_of_mem (a := g.xyz.1) (List.mem_flatMap.mpr ⟨g, hg, by simp⟩)
  · obtain ⟨g, hg, ha⟩ := List.mem_flatMap.mp ha
    simp only [List.mem_cons, List.not_mem_nil, or_false] at ha
    rcases ha with rfl | rfl | rfl
    · exact (h g hg).1
    · exact (h g hg).2.1
    · exact (h g hg).2.2

theorem intArray_jis (gcps : List (GcpNum K)) (hne : gcps ≠ [])
    (h : ∀ g ∈ gcps, g.ji.1.isInt = true ∧ g.ji.2.isInt = true) : intArray (jis gcps) = true := by
  refine intArray_true ?_ fun a ha => ?_
  · obtain ⟨g, hg⟩ := List.exists_mem_of_ne_nil gcps hne
    exact List.ne_nil_of_mem (a := g.ji.1) (List.mem_flatMap.mpr ⟨g, hg, by simp⟩)
  · obtain ⟨g, hg, ha⟩ := List.mem_flatMap.mp ha
    simp only [List.mem_cons, List.not_mem_nil, or_false] at ha
    rcases ha with rfl | rfl
    · exact (h g hg).1
    · exact (h g hg).2

theorem enough (method : Method) {n : ℕ} (hn : 2 ≤ n) : ¬ n < (match method with | .shift => 1 | .shiftDrift => 2) := by
  cases method <;> simp <;> omega

/-! ## Theorems -/

/-- C99, in part: the pixel coordinates of world coordinates do not depend on whether whole numbers are given as integers or as
floats, when one of the coordinates is a float.  Missing: all integers (`C99_camera_fails`). -/
theorem C99_camera_partial (warp : Option (K × K × K → Fl K × Fl K × Fl K)) (r : Rpc K) (pts : List (Num K × Num K × Num K))
    (h : ∃ p ∈ pts, p.1.isInt = false ∨ p.2.1.isInt = false ∨ p.2.2.isInt = false) :
    worldToPixelNum warp r pts = .ok (worldToPixel warp r (pts.map fun p => (.val p.1.val, .val p.2.1.val, .val p.2.2.val))) := by
  unfold worldToPixelNum
  obtain ⟨p, hp, h⟩ := h
  have : intArray (pts.flatMap fun p => [p.1, p.2.1, p.2.2]) = false := by
    rcases h with h | h | h
    · exact intArray_false (a := p.1) (List.mem_flatMap.mpr ⟨p, hp, by simp⟩) h
    · exact intArray_false (a := p.2.1) (List.mem_flatMap.mpr ⟨p, hp, by simp⟩) h
    · exact intArray_false (a := p.2.2) (List.mem_flatMap.mpr ⟨p, hp, by simp⟩) h
  simp [this]

/-- C99 fails: an RPC camera raises a `ValueError` for any world coordinates that are integers. -/
theorem C99_camera_fails (warp : Option (K × K × K → Fl K × Fl K × Fl K)) (r : Rpc K) (pts : List (ℤ × ℤ × ℤ)) (hne : pts ≠ []) :
    worldToPixelNum warp r (pts.map fun p => (.int p.1, .int p.2.1, .int p.2.2)) = .error .valueError := by
  unfold worldToPixelNum
  rw [intArray_true]
  · rfl
  · obtain ⟨p, hp⟩ := List.exists_mem_of_ne_nil pts hne
    refine List.ne_nil_of_mem (a := .int p.1) (List.mem_flatMap.mpr ⟨_, List.mem_map_of_mem hp, by simp⟩)
  · intro a ha
    obtain ⟨q, hq, ha⟩ := List.mem_flatMap.mp ha
    obtain ⟨p, -, rfl⟩ := List.mem_map.mp hq
    simp only [List.mem_cons, List.not_mem_nil, or_false] at ha
    rcases ha with rfl | rfl | rfl <;> rfl

/-- C99, in part: a refined RPC model does not depend on whether whole numbers are given as integers or as floats, if there is a
float among the world coordinates, and a float among the pixel coordinates and pixel offsets.  Missing: `C99_world_fails`,
`C99_pixel_fails`. -/
theorem C99_refine_partial (lstsq : List (K × K) → Tform K) (method : Method) (r : Rpc K) (s t : Num K) (gcps : List (GcpNum K))
    (hx : ∃ g ∈ gcps, g.xyz.1.isInt = false ∨ g.xyz.2.1.isInt = false ∨ g.xyz.2.2.isInt = false)
    (hj : s.isInt = false ∨ t.isInt = false ∨ ∃ g ∈ gcps, g.ji.1.isInt = false ∨ g.ji.2.isInt = false) :
    refineNums lstsq method r s t gcps = refineNums lstsq method r s t (gcps.map GcpNum.asFloats) ∧
      refineNums lstsq method r s t gcps = refineRpc lstsq method r (gcps.map GcpNum.gcp) := by
  rw [floats_refine]
  have h2 : intArray (xyzs gcps) = false := by
    obtain ⟨g, hg, h⟩ := hx
    rcases h with h | h | h
    · exact intArray_false (a := g.xyz.1) (List.mem_flatMap.mpr ⟨g, hg, by simp⟩) h
    · exact intArray_false (a := g.xyz.2.1) (List.mem_flatMap.mpr ⟨g, hg, by simp⟩) h
    · exact intArray_false (a := g.xyz.2.2) (List.mem_flatMap.mpr ⟨g, hg, by simp⟩) h
  have h1 : (intArray (jis gcps) && (s.isInt && t.isInt)) = false := by
    rcases hj with h | h | ⟨g, hg, h⟩
    · simp [h]
    · simp [h]
    · rcases h with h | h
      · simp [intArray_false (l := jis gcps) (a := g.ji.1) (List.mem_flatMap.mpr ⟨g, hg, by simp⟩) h]
      · simp [intArray_false (l := jis gcps) (a := g.ji.2) (List.mem_flatMap.mpr ⟨g, hg, by simp⟩) h]
  have : refineNums lstsq method r s t gcps = refineRpc lstsq method r (gcps.map GcpNum.gcp) := by
    unfold refineNums worldToPixelNum
    simp only [flatMap_xyz, h1, h2, Bool.false_eq_true, if_false]
    cases method <;> simp only [refineRpc, List.length_map] <;> split_ifs <;> rfl
  exact ⟨this, this⟩

/-- C99 fails: a GCP file whose world coordinates are all written as integers is read, and refining any RPC model with its GCPs
is a `ValueError`, by any method for which there are enough of them. -/
theorem C99_world_fails (lstsq : List (K × K) → Tform K) (method : Method) (r : Rpc K) (s t : Num K) (file : String)
    (pts : List ((K × K) × (ℤ × ℤ × ℤ))) (hn : 2 ≤ pts.length) :
    let json := ParamIO.writeGcps [(file, pts.map fun p =>
      (⟨[.float p.1.1, .float p.1.2], [.int p.2.1, .int p.2.2.1, .int p.2.2.2], .null, .null⟩ : ParamIO.Gcp K))]
    ∃ gcps nums, ParamIO.readOtyGcps json = .ok [(.str file, gcps)] ∧ gcps.mapM ofRead = some nums ∧
      nums.map GcpNum.gcp = pts.map (fun p => ⟨p.1, (p.2.1, p.2.2.1, p.2.2.2)⟩) ∧
      refineNums lstsq method r s t nums = .error .valueError := by
  have hne : pts ≠ [] := fun h => by rw [h] at hn; simp at hn
  refine ⟨_, pts.map fun p => ⟨(.float p.1.1, .float p.1.2), (.int p.2.1, .int p.2.2.1, .int p.2.2.2)⟩,
    read_one file _ (by simpa using hne) ?_, mapM_ofRead _ _ _ fun _ => rfl, ?_, ?_⟩
  · intro g hg
    obtain ⟨q, -, rfl⟩ := List.mem_map.mp hg
    exact ⟨⟨_, _, rfl, .inr rfl, .inr rfl⟩, ⟨_, _, _, rfl, .inl rfl, .inl rfl, .inl rfl⟩, rfl, rfl⟩
  · simp [GcpNum.gcp, Num.val]
  · have hx := intArray_xyzs (K := K)
      (pts.map fun p => ⟨(.float p.1.1, .float p.1.2), (.int p.2.1, .int p.2.2.1, .int p.2.2.2)⟩) (by simpa using hne)
      (fun g hg => by obtain ⟨q, -, rfl⟩ := List.mem_map.mp hg; exact ⟨rfl, rfl, rfl⟩)
    unfold refineNums worldToPixelNum
    have hj : intArray (jis (K := K)
        (pts.map fun p => ⟨(.float p.1.1, .float p.1.2), (.int p.2.1, .int p.2.2.1, .int p.2.2.2)⟩)) = false := by
      obtain ⟨p, hp⟩ := List.exists_mem_of_ne_nil pts hne
      exact intArray_false (a := .float p.1.1) (List.mem_flatMap.mpr ⟨_, List.mem_map_of_mem hp, by simp⟩) rfl
    rw [flatMap_xyz, hx, hj, if_neg (enough method (by simpa using hn))]
    rfl

/-- C99 fails: GCPs with integer pixel coordinates, that a GCP file may have, and an RPC model with integer `samp_off` and
`line_off`, that an RPC file may have: refining is a `TypeError`. -/
theorem C99_pixel_fails (lstsq : List (K × K) → Tform K) (method : Method) (r : Rpc K) (s t : ℤ) (file : String)
    (pts : List ((ℤ × ℤ) × (K × K × K))) (hn : 2 ≤ pts.length) :
    let json := ParamIO.writeGcps [(file, pts.map fun p =>
      (⟨[.int p.1.1, .int p.1.2], [.float p.2.1, .float p.2.2.1, .float p.2.2.2], .null, .null⟩ : ParamIO.Gcp K))]
    ∃ gcps nums, ParamIO.readOtyGcps json = .ok [(.str file, gcps)] ∧ gcps.mapM ofRead = some nums ∧
      nums.map GcpNum.gcp = pts.map (fun p => ⟨((p.1.1 : K), (p.1.2 : K)), p.2⟩) ∧
      refineNums lstsq method r (.int s) (.int t) nums = .error .typeError := by
  have hne : pts ≠ [] := fun h => by rw [h] at hn; simp at hn
  refine ⟨_, pts.map fun p => ⟨(.int p.1.1, .int p.1.2), (.float p.2.1, .float p.2.2.1, .float p.2.2.2)⟩,
    read_one file _ (by simpa using hne) ?_, mapM_ofRead _ _ _ fun _ => rfl, ?_, ?_⟩
  · intro g hg
    obtain ⟨q, -, rfl⟩ := List.mem_map.mp hg
    exact ⟨⟨_, _, rfl, .inl rfl, .inl rfl⟩, ⟨_, _, _, rfl, .inr rfl, .inr rfl, .inr rfl⟩, rfl, rfl⟩
  · simp [GcpNum.gcp, Num.val]
  · have hj := intArray_jis (K := K)
      (pts.map fun p => ⟨(.int p.1.1, .int p.1.2), (.float p.2.1, .float p.2.2.1, .float p.2.2.2)⟩) (by simpa using hne)
      (fun g hg => by obtain ⟨q, -, rfl⟩ := List.mem_map.mp hg; exact ⟨rfl, rfl⟩)
    unfold refineNums
    rw [hj, if_neg (enough method (by simpa using hn))]
    simp [Num.isInt]

/-! ## Examples -/

/-- Two GCPs with one float among the world coordinates, and one among the pixel coordinates, meet the hypotheses of
`C99_refine_partial`. -/
example (lstsq : List (ℚ × ℚ) → Tform ℚ) (r : Rpc ℚ) :
    refineNums lstsq .shiftDrift r (.int 512) (.int 512)
      [⟨(.int 10, .float (41 / 2)), (.int 24, .int (-33), .float (201 / 2))⟩, ⟨(.int 30, .int 40), (.int 25, .int (-34), .int 100)⟩] =
    refineRpc lstsq .shiftDrift r [⟨(10, 41 / 2), (24, -33, 201 / 2)⟩, ⟨(30, 40), (25, -34, 100)⟩] := by
  have := (C99_refine_partial lstsq .shiftDrift r (.int 512) (.int 512)
    [⟨(.int 10, .float (41 / 2)), (.int 24, .int (-33), .float (201 / 2))⟩, ⟨(.int 30, .int 40), (.int 25, .int (-34), .int 100)⟩]
    ⟨_, List.mem_cons_self .., .inr (.inr rfl)⟩ (.inr (.inr ⟨_, List.mem_cons_self .., .inr rfl⟩))).2
  rw [this]
  simp [GcpNum.gcp, Num.val]

/-- The same GCPs with the heights in whole metres. -/
example (lstsq : List (ℚ × ℚ) → Tform ℚ) (r : Rpc ℚ) :
    refineNums lstsq .shift r (.float 512) (.float 512) [⟨(.int 10, .int 20), (.int 24, .int (-33), .int 100)⟩] = .error .valueError := rfl

end Verif.RpcCam.Whole
