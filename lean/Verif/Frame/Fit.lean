import Verif.Base.Dict
import Verif.Frame.Distort
import Mathlib.Analysis.SpecialFunctions.Trigonometric.Bounds

/-!
# Fitting frame cameras to GCPs (C75, C76)
-/

set_option autoImplicit false

namespace Verif.Frame

open Matrix Real
open Res (ok_bind error_bind)

noncomputable section

/-- `CameraType` of frame cameras. -/
inductive FrameType
  | pinhole
  | brown
  | opencv
  | fisheye
  deriving DecidableEq

/-- orthority/param_io.py:56-64 with orthority/fit.py:41 `_frame_dist_params`. -/
def distNames : FrameType → List String
  | .pinhole => []
  | .opencv => ["k1", "k2", "p1", "p2", "k3", "k4", "k5", "k6", "s1", "s2", "s3", "s4", "tx", "ty"]
  | .brown => ["k1", "k2", "p1", "p2", "k3"]
  | .fisheye => ["k1", "k2", "k3", "k4"]

/-- Interior parameters of a camera.  `dist` are the distortion coefficients that are given. -/
structure IntParam where
  camType : FrameType
  imSize : ℕ × ℕ
  focal : List ℝ
  sensor : Option (List ℝ)
  cx : Option ℝ
  cy : Option ℝ
  dist : String → Option ℝ

/-- Exterior parameters of an image. -/
structure ExtParam where
  xyz : V3
  opk : ℝ × ℝ × ℝ
  camera : String

/-- A GCP. -/
structure Gcp where
  ji : ℝ × ℝ
  xyz : V3

/-- A coefficient, zero when it is not given. -/
def IntParam.coeff (p : IntParam) (n : String) : ℝ := (p.dist n).getD 0

/-- The intrinsic matrix, orthority/camera.py:604-611 and orthority/fit.py:336-343. -/
def IntParam.intrinsic (p : IntParam) : Res M3 := getIntrinsic p.imSize p.focal p.sensor (p.cx.getD 0) (p.cy.getD 0)

/-- Camera coordinates (at unit depth) to pixels for each class of camera: orthority/camera.py:789-792, 1257-1260, 1346-1365
and 1457-1482. -/
def IntParam.camToPix (p : IntParam) (K : M3) (x : V3) : Fl ℝ × Fl ℝ :=
  match p.camType with
  | .pinhole => (.val (dotK K x).1, .val (dotK K x).2)
  | .brown =>
    let y := brownDistort (p.coeff "k1") (p.coeff "k2") (p.coeff "p1") (p.coeff "p2") (p.coeff "k3") x
    (.val (dotK K y).1, .val (dotK K y).2)
  | .opencv =>
    let d := cvOrder (p.coeff "k1") (p.coeff "k2") (p.coeff "k3") (p.coeff "p1") (p.coeff "p2") (p.coeff "k4") (p.coeff "k5")
      (p.coeff "k6") (p.coeff "s1") (p.coeff "s2") (p.coeff "s3") (p.coeff "s4") (p.coeff "tx") (p.coeff "ty")
    (.val (cvCamToPix K (truncDist d) x).1, .val (cvCamToPix K (truncDist d) x).2)
  | .fisheye => dotKFl K (fisheyeDistort (p.coeff "k1") (p.coeff "k2") (p.coeff "k3") (p.coeff "k4") (x 0) (x 1))

/-- `create_camera(**int_param, xyz=xyz, opk=opk).world_to_pixel` of a point, orthority/camera.py:594-614 and 816-841. -/
def IntParam.project (p : IntParam) (e : ExtParam) (X : V3) : Res (Fl ℝ × Fl ℝ) := do
  let K ← p.intrinsic
  .ok (p.camToPix K (FrameCam.unitDepth (FrameCam.camCoords (extrinsicR e.opk) e.xyz X)))

/-- Mean of points. -/
def meanPt (l : List V3) : V3 := fun i => (l.map fun X => X i).sum / l.length

/-- orthority/fit.py:133-155 `_gcps_to_cv_coords`: `warp` is the transform from WGS84 to `crs`, if there is one.  The conversion to
float32 is not modelled. -/
def gcpsToCv (warp : Option (V3 → V3)) (gcps : Dict String (List Gcp)) : List (List (ℝ × ℝ)) × List (List V3) × V3 :=
  let jis := gcps.map fun q => q.2.map Gcp.ji
  let xyzs := gcps.map fun q =>
    let xyz := q.2.map Gcp.xyz
    match warp with
    | some w => xyz.map w
    | none => xyz
  let ref := meanPt xyzs.flatten
  (jis, xyzs.map fun xyz => xyz.map fun X => X - ref, ref)

/-- orthority/fit.py:299-360 `fit_frame_exterior`: `solve` is `cv2.solvePnP`, which gives the rotation and translation vectors.
Its first result, whether it found a solution, is ignored by the code.  The warning for more than one camera is not modelled. -/
def fitExterior (solve : List V3 → List (ℝ × ℝ) → M3 → Option (List ℝ) → V3 × V3) (warp : Option (V3 → V3))
    (ints : Dict String IntParam) (gcps : Dict String (List Gcp)) : Res (Dict String ExtParam) := do
  let q ← match ints with
    | [] => .error .stopIteration
    | q :: _ => .ok q
  if gcps = [] then .error .valueError
  else if gcps.any (fun g => decide (g.2.length < 3)) then .error .valueError
  else
    let K ← q.2.intrinsic
    let d := (distNames q.2.camType).map q.2.coeff
    let d := if d.isEmpty then none else some d
    let (jis, xyzs, ref) := gcpsToCv warp gcps
    .ok (Dict.ofItems (((gcps.map Prod.fst).zip (xyzs.zip jis)).map fun a =>
      let rt := solve a.2.1 a.2.2 K d
      let xo := cvExtToOtyExt rt.2 (rodrigues rt.1) (some ref)
      (a.1, ⟨xo.1, xo.2, q.1⟩)))

/-! ## Specification -/

/-- World coordinates of a GCP in the CRS of the camera. -/
def Gcp.world (g : Gcp) : Option (V3 → V3) → V3
  | some w => w g.xyz
  | none => g.xyz

/-- The distortion coefficients that OpenCV is given: none for a pinhole camera. -/
def cvDist (p : IntParam) : Option (List ℝ) :=
  if ((distNames p.camType).map p.coeff).isEmpty then none else some ((distNames p.camType).map p.coeff)

theorem cvDist_getD (p : IntParam) : (cvDist p).getD [] = (distNames p.camType).map p.coeff := by
  unfold cvDist
  cases (distNames p.camType).map p.coeff <;> rfl

/-- Mean of the GCPs of all images, in the CRS of the camera. -/
def refPt (warp : Option (V3 → V3)) (gcps : Dict String (List Gcp)) : V3 := meanPt (gcps.map fun g => g.2.map fun q => q.world warp).flatten

/-- The pose (rotation vector, translation) sees the point `X` at pixel `ji`, for OpenCV's model with intrinsic matrix `K` and distortion
coefficients `d`. -/
def Sees (K : M3) (d : List ℝ) (pose : V3 × V3) (X : V3) (ji : ℝ × ℝ) : Prop :=
  (rodrigues pose.1 *ᵥ X + pose.2) 2 ≠ 0 ∧ cvCamToPix K d (rodrigues pose.1 *ᵥ X + pose.2) = ji

/-- A pose in which phi is 90 or -90 degrees. -/
def Gimbal (pose : V3 × V3) : Prop := rodrigues pose.1 2 0 ^ 2 = 1

/-- An exact solver: it finds a pose that sees all points at their pixels if there is one. -/
def Exact (solve : List V3 → List (ℝ × ℝ) → M3 → Option (List ℝ) → V3 × V3) : Prop :=
  ∀ (pts : List (V3 × (ℝ × ℝ))) (K : M3) (d : Option (List ℝ)),
    (∃ pose, ∀ q ∈ pts, Sees K (d.getD []) pose q.1 q.2) →
    ∀ q ∈ pts, Sees K (d.getD []) (solve (pts.map Prod.fst) (pts.map Prod.snd) K d) q.1 q.2

/-! ## Lemmas -/

theorem unitDepth_two (x : V3) (h : x 2 ≠ 0) : FrameCam.unitDepth x 2 = 1 := div_self h

theorem cvCamToPix_unitDepth (K : M3) (d : List ℝ) (x : V3) (h : x 2 ≠ 0) :
    cvCamToPix K d (FrameCam.unitDepth x) = cvCamToPix K d x := by
  simp only [cvCamToPix, FrameCam.unitDepth, div_self h, div_one]

/-- Cameras other than fisheye cameras project as OpenCV does with their coefficients. -/
theorem camToPix_cv (p : IntParam) (hp : p.camType ≠ .fisheye) (K : M3) (x : V3) (hx : x 2 ≠ 0) :
    p.camToPix K (FrameCam.unitDepth x) =
      (.val (cvCamToPix K ((distNames p.camType).map p.coeff) x).1, .val (cvCamToPix K ((distNames p.camType).map p.coeff) x).2) := by
  have h1 := unitDepth_two x hx
  rw [← cvCamToPix_unitDepth K _ x hx]
  unfold IntParam.camToPix
  cases ht : p.camType with
  | fisheye => exact absurd ht hp
  | pinhole =>
    have : dotK K (FrameCam.unitDepth x) = cvCamToPix K [] (FrameCam.unitDepth x) := by
      rw [← C45_brown_zero, C45_brown K 0 0 0 0 0 _ h1]
      simp only [cvCamToPix, cvDistort, coef]
      simp
    simp only [distNames, List.map_nil, this]
  | brown =>
    simp only [distNames, List.map_cons, List.map_nil]
    rw [C45_brown K _ _ _ _ _ _ h1]
  | opencv =>
    simp only [distNames, List.map_cons, List.map_nil]
    rw [C45_trunc]
    rfl

theorem gcpsToCv_eq (warp : Option (V3 → V3)) (gcps : Dict String (List Gcp)) :
    gcpsToCv warp gcps = (gcps.map (fun q => q.2.map Gcp.ji),
      gcps.map (fun g => g.2.map fun q => q.world warp - meanPt (gcps.map fun g => g.2.map fun q => q.world warp).flatten),
      meanPt (gcps.map fun g => g.2.map fun q => q.world warp).flatten) := by
  cases warp with
  | none =>
    simp only [gcpsToCv, List.map_map, Gcp.world, Function.comp_def]
  | some w =>
    simp only [gcpsToCv, List.map_map, Gcp.world, Function.comp_def]

theorem zip_items {A B : Type} (f : List Gcp → A) (g : List Gcp → B) (l : Dict String (List Gcp)) :
    (l.map Prod.fst).zip ((l.map fun q => f q.2).zip (l.map fun q => g q.2)) = l.map fun q => (q.1, f q.2, g q.2) := by
  induction l with
  | nil => rfl
  | cons a l ih => simp only [List.map_cons, List.zip_cons_cons, ih]

/-- The exterior parameters of an image. -/
def fitted (solve : List V3 → List (ℝ × ℝ) → M3 → Option (List ℝ) → V3 × V3) (warp : Option (V3 → V3)) (gcps : Dict String (List Gcp))
    (id : String) (p : IntParam) (K : M3) (gs : List Gcp) : ExtParam :=
  let rt := solve (gs.map fun q => q.world warp - refPt warp gcps) (gs.map Gcp.ji) K (cvDist p)
  ⟨(cvExtToOtyExt rt.2 (rodrigues rt.1) (some (refPt warp gcps))).1, (cvExtToOtyExt rt.2 (rodrigues rt.1) (some (refPt warp gcps))).2, id⟩

theorem fitExterior_ok {solve : List V3 → List (ℝ × ℝ) → M3 → Option (List ℝ) → V3 × V3} {warp : Option (V3 → V3)}
    {ints : Dict String IntParam} {gcps : Dict String (List Gcp)} {ext : Dict String ExtParam} (hg : gcps.Ok)
    (h : fitExterior solve warp ints gcps = .ok ext) :
    ∃ id p rest K, ints = (id, p) :: rest ∧ gcps ≠ [] ∧ (∀ g ∈ gcps, 3 ≤ g.2.length) ∧ p.intrinsic = .ok K ∧
      ext = gcps.map fun g => (g.1, fitted solve warp gcps id p K g.2) := by
  unfold fitExterior at h
  match ints with
  | [] => cases h
  | (id, p) :: rest =>
    simp only [ok_bind] at h
    by_cases h0 : gcps = []
    · rw [if_pos h0] at h; cases h
    rw [if_neg h0] at h
    by_cases h3 : gcps.any (fun g => decide (g.2.length < 3))
    · rw [if_pos h3] at h; cases h
    rw [if_neg h3] at h
    cases hK : p.intrinsic with
    | error e => rw [hK] at h; cases h
    | ok K =>
      rw [hK, ok_bind] at h
      refine ⟨id, p, rest, K, rfl, h0, ?_, hK, ?_⟩
      · intro g hgm
        by_contra hc
        apply h3
        rw [List.any_eq_true]
        exact ⟨g, hgm, by simpa using hc⟩
      · have h := Except.ok.inj h
        rw [← h]
        simp only [gcpsToCv_eq]
        rw [zip_items, List.map_map, Dict.ofItems_ok]
        · rfl
        · unfold Dict.Ok
          rw [List.map_map]
          exact hg

/-! ## C75: exterior parameters -/

/-- C75: there is one set of exterior parameters for each image, in the order of the images, for the first camera. -/
theorem C75_images (solve : List V3 → List (ℝ × ℝ) → M3 → Option (List ℝ) → V3 × V3) (warp : Option (V3 → V3))
    (ints : Dict String IntParam) (gcps : Dict String (List Gcp)) (hg : gcps.Ok) (ext : Dict String ExtParam)
    (h : fitExterior solve warp ints gcps = .ok ext) :
    ext.map Prod.fst = gcps.map Prod.fst ∧ ∀ q ∈ ext, some q.2.camera = ints.head?.map Prod.fst := by
  obtain ⟨id, p, rest, K, hi, -, -, -, rfl⟩ := fitExterior_ok hg h
  refine ⟨by rw [List.map_map]; rfl, ?_⟩
  intro q hq
  obtain ⟨g, -, rfl⟩ := List.mem_map.1 hq
  rw [hi]
  rfl

/-- C75: parameters are fitted exactly when there is a camera (with a focal length and sensor size of right shape), there are images, and
each has three GCPs or more. -/
theorem C75_accepts (solve : List V3 → List (ℝ × ℝ) → M3 → Option (List ℝ) → V3 × V3) (warp : Option (V3 → V3))
    (ints : Dict String IntParam) (gcps : Dict String (List Gcp)) (hg : gcps.Ok) :
    (∃ ext, fitExterior solve warp ints gcps = .ok ext) ↔
      gcps ≠ [] ∧ (∀ g ∈ gcps, 3 ≤ g.2.length) ∧ ∃ id p rest K, ints = (id, p) :: rest ∧ p.intrinsic = .ok K := by
  constructor
  · rintro ⟨ext, h⟩
    obtain ⟨id, p, rest, K, hi, h0, h3, hK, -⟩ := fitExterior_ok hg h
    exact ⟨h0, h3, id, p, rest, K, hi, hK⟩
  · rintro ⟨h0, h3, id, p, rest, K, rfl, hK⟩
    have h3' : ¬ (gcps.any (fun g => decide (g.2.length < 3)) = true) := by
      rw [List.any_eq_true]
      rintro ⟨g, hgm, hl⟩
      have := h3 g hgm
      simp at hl
      omega
    cases hf : fitExterior solve warp ((id, p) :: rest) gcps with
    | ok ext => exact ⟨ext, rfl⟩
    | error e =>
      unfold fitExterior at hf
      simp only [ok_bind] at hf
      rw [if_neg h0, if_neg h3', hK, ok_bind] at hf
      cases hf

/-- C75: images without enough GCPs are refused with a `ValueError`, and no cameras with a `StopIteration`. -/
theorem C75_refuses (solve : List V3 → List (ℝ × ℝ) → M3 → Option (List ℝ) → V3 × V3) (warp : Option (V3 → V3))
    (q : String × IntParam) (ints : Dict String IntParam) (gcps : Dict String (List Gcp)) (h : gcps = [] ∨ ∃ g ∈ gcps, g.2.length < 3) :
    fitExterior solve warp (q :: ints) gcps = .error .valueError ∧
      fitExterior solve warp [] gcps = .error .stopIteration := by
  refine ⟨?_, rfl⟩
  unfold fitExterior
  simp only [ok_bind]
  rcases h with h | ⟨g, hg, hl⟩
  · rw [if_pos h]
  · rw [if_neg (List.ne_nil_of_mem hg), if_pos]
    rw [List.any_eq_true]
    exact ⟨g, hg, by simpa using hl⟩

/-- C75, the part that holds: for pinhole, Brown and OpenCV cameras, the camera with the fitted exterior parameters projects every world
point in front of or behind it to where OpenCV projects it with the pose that it found.  So the camera's reprojection error is the one
that OpenCV minimised.  Missing: fisheye cameras (`C75_fisheye_fails`), and poses with phi of 90 or -90 degrees (`C35_gimbal_fails`). -/
theorem C75_projection_partial (solve : List V3 → List (ℝ × ℝ) → M3 → Option (List ℝ) → V3 × V3) (warp : Option (V3 → V3))
    (id : String) (p : IntParam) (rest : Dict String IntParam) (gcps : Dict String (List Gcp)) (hg : gcps.Ok) (ext : Dict String ExtParam)
    (h : fitExterior solve warp ((id, p) :: rest) gcps = .ok ext) (hp : p.camType ≠ .fisheye) (name : String) (gs : List Gcp)
    (hgs : (name, gs) ∈ gcps) (K : M3) (hK : p.intrinsic = .ok K) (pose : V3 × V3)
    (hpose : pose = solve (gs.map fun g => g.world warp - refPt warp gcps) (gs.map Gcp.ji) K (cvDist p)) (hgim : ¬ Gimbal pose) :
    ∃ e, (name, e) ∈ ext ∧ ∀ X : V3, (rodrigues pose.1 *ᵥ (X - refPt warp gcps) + pose.2) 2 ≠ 0 →
      p.project e X = .ok (.val (cvCamToPix K ((cvDist p).getD []) (rodrigues pose.1 *ᵥ (X - refPt warp gcps) + pose.2)).1,
        .val (cvCamToPix K ((cvDist p).getD []) (rodrigues pose.1 *ᵥ (X - refPt warp gcps) + pose.2)).2) := by
  obtain ⟨id', p', rest', K', hi, -, -, hK', hext⟩ := fitExterior_ok hg h
  injection hi with hi1 hi2
  injection hi1 with hid hpp
  subst hid hpp
  rw [hK] at hK'
  rw [← Except.ok.inj hK'] at hext
  refine ⟨fitted solve warp gcps id p K gs, ?_, ?_⟩
  · rw [hext]
    exact List.mem_map.2 ⟨(name, gs), hgs, rfl⟩
  · intro X hdep
    unfold IntParam.project fitted
    rw [hK, ok_bind, FrameCam.camCoords, ← hpose]
    simp only
    rw [C35_rodrigues_partial pose.1 pose.2 X (some _) hgim, Option.getD_some, camToPix_cv p hp K _ hdep, cvDist_getD]

/-- C75, the part that holds: when there is a pose from which the camera sees the GCPs of an image at their pixels (and none such with
phi of 90 or -90 degrees), and OpenCV finds one, the camera with the fitted exterior parameters projects each GCP of the image onto its pixel.
The pose is in world coordinates, in the CRS of the camera. -/
theorem C75_gcps_partial (solve : List V3 → List (ℝ × ℝ) → M3 → Option (List ℝ) → V3 × V3) (hs : Exact solve)
    (warp : Option (V3 → V3))
    (id : String) (p : IntParam) (rest : Dict String IntParam) (gcps : Dict String (List Gcp)) (hg : gcps.Ok) (ext : Dict String ExtParam)
    (h : fitExterior solve warp ((id, p) :: rest) gcps = .ok ext) (hp : p.camType ≠ .fisheye) (name : String) (gs : List Gcp)
    (hgs : (name, gs) ∈ gcps) (K : M3) (hK : p.intrinsic = .ok K) (pose : V3 × V3)
    (hpose : ∀ g ∈ gs, Sees K ((distNames p.camType).map p.coeff) pose (g.world warp) g.ji)
    (hng : ∀ pose, (∀ g ∈ gs, Sees K ((distNames p.camType).map p.coeff) pose (g.world warp) g.ji) → ¬ Gimbal pose) :
    ∃ e, (name, e) ∈ ext ∧ ∀ g ∈ gs, p.project e (g.world warp) = .ok (.val g.ji.1, .val g.ji.2) := by
  have hd := cvDist_getD p
  have hx := hs (gs.map fun g => (g.world warp - refPt warp gcps, g.ji)) K (cvDist p) ⟨(pose.1, pose.2 + rodrigues pose.1 *ᵥ refPt warp gcps), ?_⟩
  · rw [List.map_map, List.map_map] at hx
    obtain ⟨sol, hsol⟩ : ∃ sol, sol = solve (gs.map fun g => g.world warp - refPt warp gcps) (gs.map Gcp.ji) K (cvDist p) := ⟨_, rfl⟩
    have hx' : ∀ g ∈ gs, Sees K ((cvDist p).getD []) sol (g.world warp - refPt warp gcps) g.ji :=
      fun g hgm => hsol ▸ hx (g.world warp - refPt warp gcps, g.ji) (List.mem_map.2 ⟨g, hgm, rfl⟩)
    have hgim : ¬ Gimbal sol := by
      refine hng (sol.1, sol.2 - rodrigues sol.1 *ᵥ refPt warp gcps) ?_
      intro g hgm
      have := hx' g hgm
      have heq : rodrigues sol.1 *ᵥ g.world warp + (sol.2 - rodrigues sol.1 *ᵥ refPt warp gcps) =
          rodrigues sol.1 *ᵥ (g.world warp - refPt warp gcps) + sol.2 := by
        rw [mulVec_sub]
        abel
      rw [← hd]
      unfold Sees
      simp only
      rw [heq]
      exact this
    obtain ⟨e, hmem, hproj⟩ := C75_projection_partial solve warp id p rest gcps hg ext h hp name gs hgs K hK sol hsol hgim
    refine ⟨e, hmem, ?_⟩
    intro g hgm
    obtain ⟨h1, h2⟩ := hx' g hgm
    rw [hproj (g.world warp) h1, h2]
  · intro q hq
    obtain ⟨g, hgm, rfl⟩ := List.mem_map.1 hq
    have := hpose g hgm
    have heq : rodrigues pose.1 *ᵥ (g.world warp - refPt warp gcps) + (pose.2 + rodrigues pose.1 *ᵥ refPt warp gcps) =
        rodrigues pose.1 *ᵥ g.world warp + pose.2 := by
      rw [mulVec_sub]
      abel
    rw [hd]
    unfold Sees
    simp only
    rw [heq]
    exact this

theorem arctan_ne_self {r : ℝ} (hr : 0 < r) : arctan r ≠ r := by
  have h1 : 0 < arctan r := arctan_pos.2 hr
  have h2 := lt_tan h1 (arctan_lt_pi_div_two r)
  rw [tan_arctan] at h2
  exact h2.ne

/-- C75: for a fisheye camera without distortion coefficients, OpenCV fits a pinhole camera: when it finds a pose that sees the GCPs at
their pixels, the camera projects none of them to its pixel, other than perhaps those on the optical axis. -/
theorem C75_fisheye_fails (solve : List V3 → List (ℝ × ℝ) → M3 → Option (List ℝ) → V3 × V3) (warp : Option (V3 → V3))
    (id : String) (p : IntParam) (rest : Dict String IntParam) (gcps : Dict String (List Gcp)) (hg : gcps.Ok) (ext : Dict String ExtParam)
    (h : fitExterior solve warp ((id, p) :: rest) gcps = .ok ext) (hp : p.camType = .fisheye) (hz : ∀ n, p.dist n = none) (name : String)
    (gs : List Gcp) (hgs : (name, gs) ∈ gcps) (K : M3) (hK : p.intrinsic = .ok K) (hdet : K.det ≠ 0) (pose : V3 × V3)
    (hpose : pose = solve (gs.map fun g => g.world warp - refPt warp gcps) (gs.map Gcp.ji) K (cvDist p)) (hgim : ¬ Gimbal pose) :
    ∃ e, (name, e) ∈ ext ∧ ∀ g ∈ gs, Sees K ((cvDist p).getD []) pose (g.world warp - refPt warp gcps) g.ji →
      ((rodrigues pose.1 *ᵥ (g.world warp - refPt warp gcps) + pose.2) 0 ≠ 0 ∨
        (rodrigues pose.1 *ᵥ (g.world warp - refPt warp gcps) + pose.2) 1 ≠ 0) →
      p.project e (g.world warp) ≠ .ok (.val g.ji.1, .val g.ji.2) := by
  obtain ⟨id', p', rest', K', hi, -, -, hK', hext⟩ := fitExterior_ok hg h
  injection hi with hi1 hi2
  injection hi1 with hid hpp
  subst hid hpp
  rw [hK] at hK'
  rw [← Except.ok.inj hK'] at hext
  refine ⟨fitted solve warp gcps id p K gs, ?_, ?_⟩
  · rw [hext]
    exact List.mem_map.2 ⟨(name, gs), hgs, rfl⟩
  · intro g hgm hsee hoff heq
    have hc : ∀ n, p.coeff n = 0 := fun n => by rw [IntParam.coeff, hz n]; rfl
    unfold IntParam.project fitted at heq
    rw [hK, ok_bind, FrameCam.camCoords, ← hpose] at heq
    simp only at heq
    rw [C35_rodrigues_partial pose.1 pose.2 _ (some _) hgim, Option.getD_some] at heq
    obtain ⟨hdep, hpix⟩ := hsee
    generalize rodrigues pose.1 *ᵥ (g.world warp - refPt warp gcps) + pose.2 = x at *
    have hpix' : dotK K (FrameCam.unitDepth x) = g.ji := by
      rw [← hpix, ← cvCamToPix_unitDepth K _ x hdep, ← C45_brown_zero, C45_brown K 0 0 0 0 0 _ (unitDepth_two x hdep)]
      have hcf : ∀ i, coef ((cvDist p).getD []) i = coef [0, 0, 0, 0, 0] i := by
        intro i
        rw [cvDist_getD, hp]
        simp only [distNames, List.map_cons, List.map_nil, hc]
        match i with
        | 0 | 1 | 2 | 3 | 4 => rfl
        | i + 5 => simp [coef]
      simp only [cvCamToPix, cvDistort, hcf]
    have heq := Except.ok.inj heq
    rw [← hpix'] at heq
    unfold IntParam.camToPix at heq
    rw [hp] at heq
    simp only [hc] at heq
    obtain ⟨f, c, hf⟩ : ∃ f c : ℝ × ℝ, K = kMat f c := by
      obtain ⟨f, s, -, -, hk⟩ := getIntrinsic_ok hK
      exact ⟨_, _, hk⟩
    subst hf
    rw [kMat_det] at hdet
    have hf1 : f.1 ≠ 0 := left_ne_zero_of_mul hdet
    have hf2 : f.2 ≠ 0 := right_ne_zero_of_mul hdet
    have h2 := unitDepth_two x hdep
    have hoff' : FrameCam.unitDepth x 0 ≠ 0 ∨ FrameCam.unitDepth x 1 ≠ 0 :=
      hoff.imp (fun h => div_ne_zero h hdep) (fun h => div_ne_zero h hdep)
    generalize FrameCam.unitDepth x = u at *
    have hpos : 0 < u 0 ^ 2 + u 1 ^ 2 := by
      rcases hoff' with h | h <;> positivity
    have hr : 0 < axisDist (u 0) (u 1) := sqrt_pos.2 hpos
    have ht : fisheyeTheta 0 0 0 0 (axisDist (u 0) (u 1)) = arctan (axisDist (u 0) (u 1)) := by
      rw [C45_fisheye]; ring
    have hne : arctan (axisDist (u 0) (u 1)) / axisDist (u 0) (u 1) ≠ 1 := by
      intro h1
      rw [div_eq_one_iff_eq hr.ne'] at h1
      exact arctan_ne_self hr h1
    simp only [fisheyeDistort, ht, Fl.val_div, hr.ne', if_false, dotKFl, dotK_kMat] at heq
    generalize arctan (axisDist (u 0) (u 1)) / axisDist (u 0) (u 1) = m at *
    injection heq with ha hb
    simp only [kMat, Fl.val_mul, Fl.val_add, Fl.val.injEq, h2] at ha hb
    simp at ha hb
    rcases hoff' with h | h
    · rcases ha with ha | ha
      · exact hne (mul_left_cancel₀ h (by rw [ha, mul_one]))
      · exact hf1 ha
    · rcases hb with hb | hb
      · exact hne (mul_left_cancel₀ h (by rw [hb, mul_one]))
      · exact hf2 hb

/-! ### Concrete cases for C75 -/

/-- A pinhole camera of 1 by 1 pixels with focal length 1. -/
def exInt : IntParam := ⟨.pinhole, (1, 1), [1], none, none, none, fun _ => none⟩

/-- Three GCPs seen by the camera at depth 1 or 2. -/
def exGcps : List Gcp := [⟨(0, 0), ![0, 0, 0]⟩, ⟨(0, 0), ![0, 0, 1]⟩, ⟨(1, 0), ![1, 0, 0]⟩]

theorem exInt_intrinsic : exInt.intrinsic = .ok (kMat (1, 1) (0, 0)) := by
  show Except.ok _ = Except.ok _
  congr 1
  simp [kMat, sigmaXY, centreXY, exInt]

theorem rodrigues_zero : rodrigues 0 = 1 := by
  ext i j
  fin_cases i <;> fin_cases j <;> simp [rodrigues, norm3]

/-- The GCPs are seen without rotation, from one unit in front of the first. -/
theorem exGcps_seen : ∀ g ∈ exGcps, Sees (kMat (1, 1) (0, 0)) ((distNames exInt.camType).map exInt.coeff) (0, ![0, 0, 1])
    (g.world none) g.ji := by
  intro g hg
  simp only [exGcps, List.mem_cons, List.not_mem_nil, or_false] at hg
  unfold Sees
  rw [rodrigues_zero, one_mulVec]
  rcases hg with rfl | rfl | rfl <;> refine ⟨?_, ?_⟩ <;>
    simp [Gcp.world, cvCamToPix, cvDistort, dotK_kMat, coef, distNames, exInt, cvTilt_zero]

/-- Every pose that sees them looks along the third axis. -/
theorem exGcps_no_gimbal (pose : V3 × V3)
    (h : ∀ g ∈ exGcps, Sees (kMat (1, 1) (0, 0)) ((distNames exInt.camType).map exInt.coeff) pose (g.world none) g.ji) : ¬ Gimbal pose := by
  have key : ∀ x : V3, x 2 ≠ 0 → cvCamToPix (kMat (1, 1) (0, 0)) ((distNames exInt.camType).map exInt.coeff) x = (0, 0) →
      x 0 = 0 ∧ x 1 = 0 := by
    intro x hx h
    have : (x 0 / x 2, x 1 / x 2) = ((0 : ℝ), (0 : ℝ)) := by
      simpa [cvCamToPix, cvDistort, dotK_kMat, coef, distNames, exInt, cvTilt_zero] using h
    injection this with h0 h1
    exact ⟨(div_eq_zero_iff.1 h0).resolve_right hx, (div_eq_zero_iff.1 h1).resolve_right hx⟩
  have ha := h ⟨(0, 0), ![0, 0, 0]⟩ (by simp [exGcps])
  have hb := h ⟨(0, 0), ![0, 0, 1]⟩ (by simp [exGcps])
  obtain ⟨a0, a1⟩ := key _ ha.1 ha.2
  obtain ⟨b0, b1⟩ := key _ hb.1 hb.2
  simp only [Gcp.world] at a0 a1 b0 b1
  have hr := isRot_rodrigues pose.1
  unfold Gimbal
  generalize rodrigues pose.1 = R at *
  simp [Matrix.mulVec, dotProduct, Fin.sum_univ_three] at a0 a1 b0 b1
  rw [a0, add_zero] at b0
  rw [a1, add_zero] at b1
  have h1 := congrFun (congrFun hr.orth 2) 2
  have h2 := congrFun (congrFun hr.orth' 2) 2
  simp [Matrix.mul_apply, Fin.sum_univ_three, b0, b1] at h1 h2
  nlinarith [sq_nonneg (R 2 0), sq_nonneg (R 2 1)]

/-- There are exact solvers. -/
example : ∃ solve, Exact solve := by
  classical
  refine ⟨fun xyz ji K d => if h : ∃ pose, ∀ q ∈ xyz.zip ji, Sees K (d.getD []) pose q.1 q.2 then h.choose else 0, ?_⟩
  intro pts K d h
  have hz : (pts.map Prod.fst).zip (pts.map Prod.snd) = pts := (List.zip_of_prod rfl rfl).symm
  simp only [hz]
  rw [dif_pos h]
  exact h.choose_spec

/-- The hypotheses of `C75_gcps_partial` are met: whatever the solver, parameters are fitted to the GCPs above. -/
example (solve : List V3 → List (ℝ × ℝ) → M3 → Option (List ℝ) → V3 × V3) :
    ∃ ext, fitExterior solve none [("cam", exInt)] [("a.tif", exGcps), ("b.tif", exGcps)] = .ok ext := by
  rw [C75_accepts _ _ _ _ (by unfold Dict.Ok; decide)]
  refine ⟨by simp, ?_, "cam", exInt, [], _, rfl, exInt_intrinsic⟩
  intro g hg
  simp at hg
  rcases hg with rfl | rfl <;> simp [exGcps]

/-- `C75_fisheye_fails`: a solver that finds the pose without rotation for the GCPs above.  The fisheye camera does not project the third
GCP to its pixel. -/
example : ∃ ext e, fitExterior (fun _ _ _ _ => (0, ![1 / 3, 0, 4 / 3])) none [("cam", { exInt with camType := .fisheye })] [("a.tif", exGcps)] =
    .ok ext ∧ ("a.tif", e) ∈ ext ∧
    IntParam.project { exInt with camType := .fisheye } e ![1, 0, 0] ≠ .ok (.val 1, .val 0) := by
  have hok : Dict.Ok [("a.tif", exGcps)] := by unfold Dict.Ok; simp
  obtain ⟨ext, h⟩ := (C75_accepts (fun _ _ _ _ => (0, ![1 / 3, 0, 4 / 3])) none [("cam", { exInt with camType := .fisheye })]
    [("a.tif", exGcps)] hok).2 ⟨by simp, (by intro g hg; simp at hg; subst hg; simp [exGcps]), "cam", _, [], _, rfl, exInt_intrinsic⟩
  have href : refPt none [("a.tif", exGcps)] = ![1 / 3, 0, 1 / 3] := by
    funext i
    fin_cases i <;> simp [refPt, meanPt, exGcps, Gcp.world]
  obtain ⟨e, he, hp⟩ := C75_fisheye_fails _ none "cam" _ [] _ hok ext h rfl (fun _ => rfl) "a.tif" exGcps (by simp) _ exInt_intrinsic
    (by rw [kMat_det]; norm_num) _ rfl (by simp [Gimbal, rodrigues_zero])
  refine ⟨ext, e, h, he, ?_⟩
  refine hp ⟨(1, 0), ![1, 0, 0]⟩ (by simp [exGcps]) ?_ ?_
  · rw [href]
    unfold Sees
    rw [rodrigues_zero, one_mulVec]
    refine ⟨?_, ?_⟩
    · simp [Gcp.world]; norm_num
    · simp [Gcp.world, cvCamToPix, cvDistort, dotK_kMat, coef, distNames, exInt, cvTilt_zero, cvDist, IntParam.coeff]
      norm_num
  · left
    rw [href, rodrigues_zero, one_mulVec]
    simp [Gcp.world]

end

end Verif.Frame
