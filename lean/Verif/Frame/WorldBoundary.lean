import Verif.Frame.Undistort

/-!
# World boundaries of frame cameras (C80)
-/

set_option autoImplicit false

namespace Verif.Frame

open Matrix Real
open Res (ok_bind error_bind)

noncomputable section

/-! ## Model -/

/-- A surface (DEM array) given for `z`, with the other arguments about it: its shape, whether `cv2.remap` takes its data type,
its extremes (`np.nanmin` and `np.nanmax`; surfaces that are all `nan` are not modelled), the pixel sizes of `transform` (when one
is given) and whether `interp` is a member of `Interp` and not a string.  `surf` is the interpolated surface. -/
structure Surface where
  shape : ℕ × ℕ
  dtypeOk : Bool
  minZ : ℝ
  maxZ : ℝ
  res : Option (ℝ × ℝ)
  interpIsEnum : Bool
  surf : ℝ → ℝ → Fl ℝ

/-- The argument `z` of `world_boundary`: a number, a two dimensional array, or something else. -/
inductive BoundaryZ
  | scalar (z : ℝ)
  | surface (s : Surface)
  | other

/-- Coordinates of a point as a triple. -/
def triple (X : V3) : ℝ × ℝ × ℝ := (X 0, X 1, X 2)

/-- orthority/camera.py:103-165 `Camera._pixel_to_world_surf`, with the extremes given.  `cv2.remap` refuses a surface or a ray of 32767
(`SHRT_MAX`) or more pixels or samples in one dimension. -/
def worldSurf (c : FrameCam) (R : M3) (T : V3) (ji : List (ℝ × ℝ)) (s : Surface) (res : ℝ × ℝ) (minZ maxZ : ℝ) : Res (List V3) :=
  if s.dtypeOk = false then .error .valueError
  else if 32767 < s.shape.1 ∨ 32767 < s.shape.2 then .error .valueError
  else if ji ≠ [] ∧ s.interpIsEnum = false then .error .attributeError
  else if ∃ p ∈ ji, 32767 ≤ s.shape.1 ∨ 32767 ≤ s.shape.2 ∨ 32767 ≤ raySteps (maxRaySteps s.shape.1 s.shape.2) res
      (triple (c.pointAtZ R T p maxZ)) (triple (c.pointAtZ R T p minZ)) then .error .cvError
  else .ok (ji.map fun p =>
    let X := surfPoint (fun z => triple (c.pointAtZ R T p z)) s.surf (maxRaySteps s.shape.1 s.shape.2) res minZ maxZ
    ![X.1, X.2.1, X.2.2])

/-- orthority/camera.py:960-1018 `FrameCamera.world_boundary`. -/
def FrameCam.worldBoundary (c : FrameCam) (z : BoundaryZ) (num : Option ℤ) (clip : Bool) : Res (List V3) := do
  let e ← c.testInit
  if ← c.horizonFov then .error .orthorityError
  else do
    let ji ← c.boundary num
    match z with
    | .scalar z =>
      let z := if ¬ clip then z else min z (e.2 2)
      c.pixelToWorldZ ⟨[2, ji.length], ji⟩ (.scalar z)
    | .surface s =>
      match s.res with
      | none => .error .valueError
      | some res =>
        if s.minZ > e.2 2 then .error .valueError
        else
          let maxZ := if ¬ clip then s.maxZ else min s.maxZ (e.2 2)
          worldSurf c e.1 e.2 ji s res s.minZ maxZ
    | .other => .error .valueError

/-! ## Specification -/

/-- A camera with exterior parameters, rays of unit depth, and a projection that gives back the pixel of each ray. -/
structure RayCam (c : FrameCam) (R : M3) (T : V3) : Prop where
  ext : c.ext = some (R, T)
  rot : IsRot R
  depth : ∀ p, c.toCam p 2 = 1
  inverse : ∀ p, c.toPix (c.toCam p) = p

/-- The ray of the pixel points down. -/
def Down (c : FrameCam) (R : M3) (p : ℝ × ℝ) : Prop := (R *ᵥ c.toCam p) 2 < 0

/-- The world point is seen at the pixel, in front of the camera. -/
def SeenAt (c : FrameCam) (R : M3) (T X : V3) (p : ℝ × ℝ) : Prop := c.projectPt R T X = p ∧ 0 < FrameCam.camCoords R T X 2

/-! ## Theorems -/

theorem RayCam.of_pinhole {c : FrameCam} {R : M3} {T : V3} (h : IsPinhole c R T) : RayCam c R T := by
  obtain ⟨s, ctr, hd, -, hp, hcam, -, hext, hR⟩ := h.spec
  refine ⟨hext, hR, fun p => ?_, fun p => ?_⟩
  · rw [hcam]; simp [kMat_ray s ctr hd]
  · rw [hp, hcam]; exact dotK_ray s ctr hd p

theorem RayCam.point {c : FrameCam} {R : M3} {T : V3} (h : RayCam c R T) {p : ℝ × ℝ} (hp : Down c R p) (z : ℝ) :
    c.pointAtZ R T p z 2 = z ∧ (z < T 2 → SeenAt c R T (c.pointAtZ R T p z) p) ∧
      (T 2 < z → FrameCam.camCoords R T (c.pointAtZ R T p z) 2 < 0) ∧ (z = T 2 → c.pointAtZ R T p z = T) := by
  have hr : (R *ᵥ c.toCam p) 2 ≠ 0 := hp.ne
  have hneg : (R *ᵥ c.toCam p) 2 < 0 := hp
  refine ⟨?_, fun hz => ⟨?_, ?_⟩, fun hz => ?_, fun hz => ?_⟩
  · show (R *ᵥ c.toCam p) 2 * ((z - T 2) / (R *ᵥ c.toCam p) 2) + T 2 = z
    field_simp
    ring
  · rw [FrameCam.projectPt, camCoords_pointAtZ c h.rot]
    have hk : (z - T 2) / (R *ᵥ c.toCam p) 2 ≠ 0 := div_ne_zero (sub_ne_zero.2 hz.ne) hr
    have : FrameCam.unitDepth (fun i => c.toCam p i * ((z - T 2) / (R *ᵥ c.toCam p) 2)) = c.toCam p := by
      funext i
      simp only [FrameCam.unitDepth, h.depth, one_mul]
      exact mul_div_cancel_right₀ _ hk
    rw [this, h.inverse]
  · rw [camCoords_pointAtZ c h.rot]
    simp only [h.depth, one_mul]
    exact div_pos_of_neg_of_neg (by linarith) hneg
  · rw [camCoords_pointAtZ c h.rot]
    simp only [h.depth, one_mul]
    exact div_neg_of_pos_of_neg (by linarith) hneg
  · funext i
    simp [FrameCam.pointAtZ, hz]

theorem pixelToWorldZ_scalar {c : FrameCam} {R : M3} {T : V3} (h : c.ext = some (R, T)) (l : List (ℝ × ℝ)) (z : ℝ) :
    c.pixelToWorldZ ⟨[2, l.length], l⟩ (.scalar z) = .ok (l.map fun p => c.pointAtZ R T p z) := by
  have hi : c.testInit = .ok (R, T) := by simp [FrameCam.testInit, h]
  unfold FrameCam.pixelToWorldZ
  simp only [hi, ok_bind, validateCoords, if_true, validateZ, pairsZ]
  show Except.ok _ = _
  rw [List.map_map]
  rfl

theorem worldBoundary_eq {c : FrameCam} {R : M3} {T : V3} (h : c.ext = some (R, T)) (hh : c.horizonFov = .ok false) (num : Option ℤ)
    (l : List (ℝ × ℝ)) (hl : c.boundary num = .ok l) (z : BoundaryZ) (clip : Bool) :
    c.worldBoundary z num clip = match z with
      | .scalar z => .ok (l.map fun p => c.pointAtZ R T p (if ¬ clip then z else min z (T 2)))
      | .surface s =>
        match s.res with
        | none => .error .valueError
        | some res =>
          if s.minZ > T 2 then .error .valueError
          else worldSurf c R T l s res s.minZ (if ¬ clip then s.maxZ else min s.maxZ (T 2))
      | .other => .error .valueError := by
  have hi : c.testInit = .ok (R, T) := by simp [FrameCam.testInit, h]
  unfold FrameCam.worldBoundary
  simp only [hi, ok_bind, hh, Bool.false_eq_true, if_false, hl]
  cases z with
  | scalar z => simp only [pixelToWorldZ_scalar h]
  | surface s => rfl
  | other => rfl

theorem worldSurf_ok {c : FrameCam} {R : M3} {T : V3} {l : List (ℝ × ℝ)} {s : Surface} {res : ℝ × ℝ} {minZ maxZ : ℝ}
    (hdt : s.dtypeOk = true) (hsh : s.shape.1 < 32767 ∧ s.shape.2 < 32767) (hi : s.interpIsEnum = true)
    (hs : ∀ p ∈ l, Short res (triple (c.pointAtZ R T p maxZ)) (triple (c.pointAtZ R T p minZ))) :
    worldSurf c R T l s res minZ maxZ = .ok (l.map fun p =>
      let X := surfPoint (fun z => triple (c.pointAtZ R T p z)) s.surf (maxRaySteps s.shape.1 s.shape.2) res minZ maxZ
      ![X.1, X.2.1, X.2.2]) := by
  unfold worldSurf
  rw [if_neg (by simp [hdt]), if_neg (by omega), if_neg (by simp [hi]), if_neg]
  rintro ⟨p, hp, h | h | h⟩
  · omega
  · omega
  · exact absurd ((raySteps_lt_iff (maxRaySteps_ge _ _) _ _ _).2 (hs p hp)) (not_lt.2 h)

/-- C80: at an elevation below the camera, the boundary is one world point for each pixel of the image boundary, at the elevation,
in front of the camera and seen at that pixel; whether or not elevations are clipped. -/
theorem C80_elevation {c : FrameCam} {R : M3} {T : V3} (h : RayCam c R T) (hh : c.horizonFov = .ok false) (num : Option ℤ)
    (l : List (ℝ × ℝ)) (hl : c.boundary num = .ok l) (hd : ∀ p ∈ l, Down c R p) (z : ℝ) (hz : z < T 2) (clip : Bool) :
    ∃ Xs, c.worldBoundary (.scalar z) num clip = .ok Xs ∧ List.Forall₂ (fun X p => X 2 = z ∧ SeenAt c R T X p) Xs l := by
  rw [worldBoundary_eq h.ext hh num l hl]
  refine ⟨_, rfl, ?_⟩
  have hz' : (if ¬ clip then z else min z (T 2)) = z := by split <;> simp [hz.le]
  rw [hz', List.forall₂_map_left_iff, List.forall₂_same]
  exact fun p hp => ⟨(h.point (hd p hp) z).1, (h.point (hd p hp) z).2.1 hz⟩

/-- C80: clipping keeps the boundary at or below the camera: for an elevation at or above the camera all points are the position of
the camera. -/
theorem C80_clip {c : FrameCam} {R : M3} {T : V3} (h : RayCam c R T) (hh : c.horizonFov = .ok false) (num : Option ℤ)
    (l : List (ℝ × ℝ)) (hl : c.boundary num = .ok l) (hd : ∀ p ∈ l, Down c R p) (z : ℝ) (hz : T 2 ≤ z) :
    c.worldBoundary (.scalar z) num true = .ok (l.map fun _ => T) := by
  rw [worldBoundary_eq h.ext hh num l hl]
  simp only [not_true_eq_false, if_false, min_eq_right hz]
  congr 1
  exact List.map_congr_left fun p hp => (h.point (hd p hp) (T 2)).2.2.2 rfl

/-- C80: without clipping, points at an elevation above the camera are behind it. -/
theorem C80_no_clip {c : FrameCam} {R : M3} {T : V3} (h : RayCam c R T) (hh : c.horizonFov = .ok false) (num : Option ℤ)
    (l : List (ℝ × ℝ)) (hl : c.boundary num = .ok l) (hd : ∀ p ∈ l, Down c R p) (z : ℝ) (hz : T 2 < z) :
    ∃ Xs, c.worldBoundary (.scalar z) num false = .ok Xs ∧
      List.Forall₂ (fun X _ => X 2 = z ∧ FrameCam.camCoords R T X 2 < 0) Xs l := by
  rw [worldBoundary_eq h.ext hh num l hl]
  refine ⟨_, rfl, ?_⟩
  simp only [Bool.false_eq_true, not_false_iff, if_true]
  rw [List.forall₂_map_left_iff, List.forall₂_same]
  exact fun p hp => ⟨(h.point (hd p hp) z).1, (h.point (hd p hp) z).2.2.1 hz⟩

/-- C80: on a surface that reaches below the camera, the boundary is one world point for each pixel of the image boundary: on the
ray of the pixel, no lower than the surface, no higher than the surface nor (with clipping) the camera, and seen at the pixel when
below the camera.  The surface has fewer than 32767 rows and columns and the rays between its extremes cross at most 32765 of its pixels. -/
theorem C80_surface {c : FrameCam} {R : M3} {T : V3} (h : RayCam c R T) (hh : c.horizonFov = .ok false) (num : Option ℤ)
    (l : List (ℝ × ℝ)) (hl : c.boundary num = .ok l) (hd : ∀ p ∈ l, Down c R p) (s : Surface) (res : ℝ × ℝ) (hres : s.res = some res)
    (hdt : s.dtypeOk = true) (hsh : s.shape.1 < 32767 ∧ s.shape.2 < 32767) (hi : s.interpIsEnum = true) (hm : s.minZ ≤ s.maxZ)
    (hc : s.minZ ≤ T 2) (clip : Bool) (hs : ∀ p ∈ l, Short res (triple (c.pointAtZ R T p (if ¬ clip then s.maxZ else min s.maxZ (T 2))))
      (triple (c.pointAtZ R T p s.minZ))) :
    ∃ Xs, c.worldBoundary (.surface s) num clip = .ok Xs ∧ List.Forall₂ (fun X p => s.minZ ≤ X 2 ∧ X 2 ≤ s.maxZ ∧
      (clip = true → X 2 ≤ T 2) ∧ X = c.pointAtZ R T p (X 2) ∧ (X 2 < T 2 → SeenAt c R T X p)) Xs l := by
  rw [worldBoundary_eq h.ext hh num l hl]
  simp only [hres, if_neg (not_lt.2 hc)]
  rw [worldSurf_ok hdt hsh hi hs]
  refine ⟨_, rfl, ?_⟩
  rw [List.forall₂_map_left_iff, List.forall₂_same]
  intro p hp
  obtain ⟨mz, hmz⟩ : ∃ mz, mz = (if ¬ clip then s.maxZ else min s.maxZ (T 2)) := ⟨_, rfl⟩
  rw [← hmz]
  have hle : s.minZ ≤ mz := by rw [hmz]; split <;> simp [hm, hc]
  have hmax : mz ≤ s.maxZ := by rw [hmz]; split <;> simp
  have hcl : clip = true → mz ≤ T 2 := by rintro rfl; rw [hmz]; simp
  obtain ⟨k, -, hk, h1, h2, -, -⟩ := C41_first (fun z => triple (c.pointAtZ R T p z)) s.surf (maxRaySteps s.shape.1 s.shape.2)
    (lt_of_lt_of_le (by norm_num) (maxRaySteps_ge _ _)) res s.minZ mz hle
  generalize sampleZ s.minZ mz _ k = zk at hk h1 h2
  have hpt := h.point (hd p hp) zk
  have hX : (![(triple (c.pointAtZ R T p zk)).1, (triple (c.pointAtZ R T p zk)).2.1, (triple (c.pointAtZ R T p zk)).2.2] : V3) =
      c.pointAtZ R T p zk := by
    funext i
    fin_cases i <;> rfl
  simp only [hk, hX, hpt.1]
  exact ⟨h1, h2.trans hmax, fun hc' => h2.trans (hcl hc'), trivial, hpt.2.1⟩

/-- C80: on a continuous surface that is below the camera, each point of the boundary is no farther from where the ray of its pixel
meets the surface than a pixel of the surface, in x and in y.  Rays that are too long for this are refused (`C80_long_fails`). -/
theorem C80_accuracy {c : FrameCam} {R : M3} {T : V3} (h : RayCam c R T) (hh : c.horizonFov = .ok false) (num : Option ℤ)
    (l : List (ℝ × ℝ)) (hl : c.boundary num = .ok l) (hd : ∀ p ∈ l, Down c R p) (s : Surface) (res : ℝ × ℝ) (hres : s.res = some res)
    (hr0 : res.1 ≠ 0 ∧ res.2 ≠ 0) (hdt : s.dtypeOk = true) (hsh : s.shape.1 < 32767 ∧ s.shape.2 < 32767) (hi : s.interpIsEnum = true)
    (hm : s.minZ ≤ s.maxZ) (hc : s.maxZ ≤ T 2) (clip : Bool)
    (hs : ∀ p ∈ l, Short res (triple (c.pointAtZ R T p s.maxZ)) (triple (c.pointAtZ R T p s.minZ)))
    (hg : ∀ p ∈ l, ∃ g : ℝ → ℝ, ContinuousOn g (Set.Icc s.minZ s.maxZ) ∧ ∀ z, s.minZ ≤ z → z ≤ s.maxZ →
      s.surf (c.pointAtZ R T p z 0) (c.pointAtZ R T p z 1) = .val (g z) ∧ s.minZ ≤ g z ∧ g z ≤ s.maxZ) :
    ∃ Xs, c.worldBoundary (.surface s) num clip = .ok Xs ∧ List.Forall₂ (fun X p => ∃ z,
      s.surf (c.pointAtZ R T p z 0) (c.pointAtZ R T p z 1) = .val z ∧
      |X 0 - c.pointAtZ R T p z 0| ≤ |res.1| ∧ |X 1 - c.pointAtZ R T p z 1| ≤ |res.2|) Xs l := by
  rw [worldBoundary_eq h.ext hh num l hl]
  simp only [hres, if_neg (not_lt.2 (hm.trans hc))]
  have hmz : (if ¬ clip then s.maxZ else min s.maxZ (T 2)) = s.maxZ := by split <;> simp [hc]
  rw [hmz, worldSurf_ok hdt hsh hi hs]
  refine ⟨_, rfl, ?_⟩
  rw [List.forall₂_map_left_iff, List.forall₂_same]
  intro p hp
  obtain ⟨A, B, hAB⟩ := C41_linear c R T p
  obtain ⟨g, hgc, hgv⟩ := hg p hp
  obtain ⟨z, hz1, hz2, hz3, hz4, hz5⟩ := C41_accuracy (triple A) (triple B) (fun z => triple (c.pointAtZ R T p z)) (fun z => by
    have h2 := (h.point (hd p hp) z).1
    simp only [triple, h2]
    rw [hAB z 0, hAB z 1]) s.surf g (maxRaySteps s.shape.1 s.shape.2) res hr0 s.minZ s.maxZ hm
    (((raySteps_lt_iff (maxRaySteps_ge _ _) _ _ _).2 (hs p hp)).trans_le (maxRaySteps_ge _ _))
    (fun z h1 h2 => (hgv z h1 h2).1) hgc (hgv _ le_rfl hm).2.1 (hgv _ hm le_rfl).2.2
  have h2 := (h.point (hd p hp) z).1
  refine ⟨z, ?_, ?_, ?_⟩
  · have : (triple (c.pointAtZ R T p z)).2.2 = z := h2
    rw [this] at hz3
    exact hz3
  · simpa [triple] using hz4
  · simpa [triple] using hz5

theorem horizon_cases {c : FrameCam} {e : M3 × V3} (h : c.ext = some e) : c.horizonFov = .ok false ∨ c.horizonFov = .ok true := by
  unfold FrameCam.horizonFov
  have hi : c.testInit = .ok e := by simp [FrameCam.testInit, h]
  rw [hi, ok_bind]
  cases decide (∃ p ∈ boundary8 c.imSize, 0 ≤ (e.1 *ᵥ c.pixToCam p) 2)
  · exact .inl rfl
  · exact .inr rfl

theorem worldBoundary_horizon {c : FrameCam} {e : M3 × V3} (h : c.ext = some e) (hh : c.horizonFov = .ok true) (z : BoundaryZ)
    (num : Option ℤ) (clip : Bool) : c.worldBoundary z num clip = .error .orthorityError := by
  have hi : c.testInit = .ok e := by simp [FrameCam.testInit, h]
  unfold FrameCam.worldBoundary
  simp only [hi, ok_bind, hh, if_true]

/-- C80: for a pinhole camera the boundary is refused for the horizon exactly when some pixel of the image has a ray that does not
point down. -/
theorem C80_horizon {c : FrameCam} {R : M3} {T : V3} (h : IsPinhole c R T) (hw : 0 < c.imSize.1) (hh : 0 < c.imSize.2)
    (z : ℝ) (clip : Bool) :
    c.worldBoundary (.scalar z) none clip = .error .orthorityError ↔ ∃ p, InIm c.imSize p ∧ ¬ Down c R p := by
  have hr := RayCam.of_pinhole h
  constructor
  · intro he
    rcases horizon_cases hr.ext with hf | hf
    · exfalso
      obtain ⟨l, hl, -, -⟩ := C42_default (K := ℝ) c.imSize none (.inl rfl)
      rw [worldBoundary_eq hr.ext hf none l (C61_pinhole_boundary h hw hh none l hl)] at he
      cases he
    · obtain ⟨j, i, h1, h2, h3, h4, h5⟩ := C39_exact h hw hh (by rw [hf]; simp)
      exact ⟨(j, i), ⟨h1, h2, h3, h4⟩, not_lt.2 h5⟩
  · rintro ⟨p, ⟨h1, h2, h3, h4⟩, hp⟩
    rcases horizon_cases hr.ext with hf | hf
    · exact absurd (C39_rays h hf p.1 p.2 h1 h2 h3 h4) hp
    · exact worldBoundary_horizon hr.ext hf _ _ _

/-- C80: all pixels of the boundary of a pinhole camera that is not refused have rays that point down, as the theorems on elevations
and surfaces ask. -/
theorem C80_pinhole {c : FrameCam} {R : M3} {T : V3} (h : IsPinhole c R T) (hw : 0 < c.imSize.1) (hh : 0 < c.imSize.2)
    (hf : c.horizonFov = .ok false) (num : Option ℤ) (l : List (ℝ × ℝ)) (hl : c.boundary num = .ok l) :
    RayCam c R T ∧ ∀ p ∈ l, InIm c.imSize p ∧ Down c R p := by
  refine ⟨.of_pinhole h, fun p hp => ?_⟩
  have hin := C61_boundary c hw hh num l hl p hp
  obtain ⟨h1, h2, h3, h4⟩ := hin
  exact ⟨⟨h1, h2, h3, h4⟩, C39_rays h hf p.1 p.2 h1 h2 h3 h4⟩

/-- C80: a camera without exterior parameters is refused with `CameraInitError`; a surface that is above the camera, one without a
transform and what is neither a number nor a surface with `ValueError`. -/
theorem C80_refuses (c : FrameCam) (z : BoundaryZ) (num : Option ℤ) (clip : Bool) :
    (c.ext = none → c.worldBoundary z num clip = .error .cameraInitError) ∧
    ∀ (R : M3) (T : V3) (l : List (ℝ × ℝ)), c.ext = some (R, T) → c.horizonFov = .ok false → c.boundary num = .ok l →
      ((z = .other ∨ (∃ s, z = .surface s ∧ (s.res = none ∨ T 2 < s.minZ ∨ s.dtypeOk = false ∨ 32767 < s.shape.1 ∨
        32767 < s.shape.2))) → c.worldBoundary z num clip = .error .valueError) := by
  constructor
  · intro h
    unfold FrameCam.worldBoundary
    simp only [FrameCam.testInit, h]
    rfl
  · intro R T l h hh hl hz
    rw [worldBoundary_eq h hh num l hl]
    rcases hz with rfl | ⟨s, rfl, hs⟩
    · rfl
    · cases hres : s.res with
      | none => simp only [hres]
      | some res =>
        simp only [hres]
        by_cases hm : s.minZ > T 2
        · rw [if_pos hm]
        · rw [if_neg hm]
          unfold worldSurf
          by_cases hdt : s.dtypeOk = false
          · rw [if_pos hdt]
          · rw [if_neg hdt, if_pos]
            rcases hs with h1 | h1 | h1 | h1 | h1
            · rw [hres] at h1; cases h1
            · exact absurd h1 hm
            · exact absurd h1 hdt
            · exact .inl h1
            · exact .inr h1

/-- C80: an interpolation type that is given as a string, as documented, ends in `AttributeError` for every surface that would
otherwise be used. -/
theorem C80_string_interp_fails {c : FrameCam} {R : M3} {T : V3} (h : c.ext = some (R, T)) (hh : c.horizonFov = .ok false)
    (num : Option ℤ) (l : List (ℝ × ℝ)) (hl : c.boundary num = .ok l) (hne : l ≠ []) (s : Surface) (hres : s.res.isSome = true)
    (hdt : s.dtypeOk = true) (hsh : s.shape.1 ≤ 32767 ∧ s.shape.2 ≤ 32767) (hc : s.minZ ≤ T 2) (hi : s.interpIsEnum = false)
    (clip : Bool) : c.worldBoundary (.surface s) num clip = .error .attributeError := by
  rw [worldBoundary_eq h hh num l hl]
  obtain ⟨res, hres⟩ := Option.isSome_iff_exists.1 hres
  simp only [hres, if_neg (not_lt.2 hc)]
  unfold worldSurf
  rw [if_neg (by simp [hdt]), if_neg (by omega), if_pos ⟨hne, hi⟩]

/-- C80: the boundary on a surface that reaches below the camera, of a supported type and with at most 32767 rows and columns as documented,
ends in `cv2.error` exactly when the surface has 32767 rows or columns, or the ray of a pixel, between the extremes of the surface (and below
the camera with clipping), crosses more than 32765 of its pixels in x or in y: the limit on the number of samples is never below what
`cv2.remap` refuses. -/
theorem C80_long_fails {c : FrameCam} {R : M3} {T : V3} (h : c.ext = some (R, T)) (hh : c.horizonFov = .ok false) (num : Option ℤ)
    (l : List (ℝ × ℝ)) (hl : c.boundary num = .ok l) (s : Surface) (res : ℝ × ℝ) (hres : s.res = some res)
    (hdt : s.dtypeOk = true) (hsh : s.shape.1 ≤ 32767 ∧ s.shape.2 ≤ 32767) (hi : s.interpIsEnum = true) (hc : s.minZ ≤ T 2)
    (clip : Bool) : c.worldBoundary (.surface s) num clip = .error .cvError ↔
      ∃ p ∈ l, s.shape.1 = 32767 ∨ s.shape.2 = 32767 ∨
        32765 < |(c.pointAtZ R T p s.minZ 0 - c.pointAtZ R T p (if clip then min s.maxZ (T 2) else s.maxZ) 0) / res.1| ∨
        32765 < |(c.pointAtZ R T p s.minZ 1 - c.pointAtZ R T p (if clip then min s.maxZ (T 2) else s.maxZ) 1) / res.2| := by
  rw [worldBoundary_eq h hh num l hl]
  simp only [hres, if_neg (not_lt.2 hc)]
  have hmz : (if ¬ clip then s.maxZ else min s.maxZ (T 2)) = if clip then min s.maxZ (T 2) else s.maxZ := by cases clip <;> rfl
  rw [hmz]
  generalize (if clip then min s.maxZ (T 2) else s.maxZ) = mz
  have key : ∀ p, (32767 ≤ s.shape.1 ∨ 32767 ≤ s.shape.2 ∨ 32767 ≤ raySteps (maxRaySteps s.shape.1 s.shape.2) res
      (triple (c.pointAtZ R T p mz)) (triple (c.pointAtZ R T p s.minZ))) ↔ (s.shape.1 = 32767 ∨ s.shape.2 = 32767 ∨
        32765 < |(c.pointAtZ R T p s.minZ 0 - c.pointAtZ R T p mz 0) / res.1| ∨
        32765 < |(c.pointAtZ R T p s.minZ 1 - c.pointAtZ R T p mz 1) / res.2|) := by
    intro p
    have h1 := (raySteps_lt_iff (maxRaySteps_ge s.shape.1 s.shape.2) res (triple (c.pointAtZ R T p mz))
      (triple (c.pointAtZ R T p s.minZ))).not
    rw [not_lt, Short, not_and_or, not_le, not_le] at h1
    rw [h1, show 32767 ≤ s.shape.1 ↔ s.shape.1 = 32767 by omega, show 32767 ≤ s.shape.2 ↔ s.shape.2 = 32767 by omega]
    rfl
  unfold worldSurf
  rw [if_neg (by simp [hdt]), if_neg (by omega), if_neg (by simp [hi])]
  simp only [key]
  constructor
  · intro he
    by_contra hn
    rw [if_neg hn] at he
    exact nomatch he
  · intro he
    rw [if_pos he]

/-! ### Examples -/

theorem demoCam_horizon : demoCam.horizonFov = .ok false :=
  isPinhole_demoCam.horizon.2 fun p _ => by rw [demoCam_ray]; simp

/-- The camera 10 above the ground sees the eight boundary points at elevation 2. -/
example : ∃ l Xs, l.length = 8 ∧ demoCam.worldBoundary (.scalar 2) none true = .ok Xs ∧
    List.Forall₂ (fun X p => X 2 = 2 ∧ SeenAt demoCam (extrinsicR (0, 0, 0)) ![0, 0, 10] X p) Xs l := by
  obtain ⟨l, hl, hn, -⟩ := C42_default (K := ℝ) (4, 3) none (.inl rfl)
  have hb := C61_pinhole_boundary isPinhole_demoCam (by decide) (by decide) none l hl
  obtain ⟨hr, hd⟩ := C80_pinhole isPinhole_demoCam (by decide) (by decide) demoCam_horizon none l hb
  obtain ⟨Xs, h1, h2⟩ := C80_elevation hr demoCam_horizon none l hb (fun p hp => (hd p hp).2) 2 (by simp; norm_num) true
  exact ⟨l, Xs, hn, h1, h2⟩

/-- A flat surface at elevation 2 below it. -/
example : ∃ Xs, demoCam.worldBoundary (.surface ⟨(10, 10), true, 2, 2, some (1, -1), true, fun _ _ => .val 2⟩) none true = .ok Xs := by
  obtain ⟨l, hl, hn, -⟩ := C42_default (K := ℝ) (4, 3) none (.inl rfl)
  have hb := C61_pinhole_boundary isPinhole_demoCam (by decide) (by decide) none l hl
  obtain ⟨hr, hd⟩ := C80_pinhole isPinhole_demoCam (by decide) (by decide) demoCam_horizon none l hb
  obtain ⟨Xs, h1, -⟩ := C80_surface hr demoCam_horizon none l hb (fun p hp => (hd p hp).2)
    ⟨(10, 10), true, 2, 2, some (1, -1), true, fun _ _ => .val 2⟩ (1, -1) rfl rfl (by decide) rfl le_rfl (by simp; norm_num) true
    (fun p _ => by
      have : min (2 : ℝ) ((![0, 0, 10] : V3) 2) = 2 := by simp; norm_num
      simp only [not_true_eq_false, if_false, this]
      exact Short.refl _ _)
  exact ⟨Xs, h1⟩

/-- A level surface at 1, said to be from 0 to 2, with pixels of 1/10: the points are within a pixel of the ground at 1. -/
example : ∃ (l : List (ℝ × ℝ)) (Xs : List V3), l.length = 8 ∧ demoCam.worldBoundary (.surface ⟨(100, 100), true, 0, 2, some (1 / 10, -1 / 10), true,
    fun _ _ => .val 1⟩) none
    true = .ok Xs ∧ List.Forall₂ (fun X p => |X 0 - (p.1 - 3 / 2) / 4 * 9| ≤ 1 / 10) Xs l := by
  have hl : pixelBoundary (K := ℝ) (4, 3) none = .ok [(0, 0), (3 / 2, 0), (3, 0), (3, 1), (3, 2), (3 / 2, 2), (0, 2), (0, 1)] := by
    simp [pixelBoundary]; norm_num
  have hb := C61_pinhole_boundary isPinhole_demoCam (by decide) (by decide) none _ hl
  obtain ⟨hr, hd⟩ := C80_pinhole isPinhole_demoCam (by decide) (by decide) demoCam_horizon none _ hb
  have hray : ∀ (p : ℝ × ℝ) (z : ℝ), demoCam.pointAtZ (extrinsicR (0, 0, 0)) ![0, 0, 10] p z =
      ![(p.1 - 3 / 2) / 4 * (10 - z), -((p.2 - 1) / 4) * (10 - z), z] := by
    intro p z
    have h := demoCam_ray p
    funext i
    simp only [FrameCam.pointAtZ, h]
    fin_cases i <;> simp <;> first | exact .inl (by ring) | ring
  obtain ⟨Xs, h1, h2⟩ := C80_accuracy hr demoCam_horizon none _ hb (fun p hp => (hd p hp).2)
    ⟨(100, 100), true, 0, 2, some (1 / 10, -1 / 10), true, fun _ _ => .val 1⟩ (1 / 10, -1 / 10) rfl (by norm_num) rfl (by decide) rfl
    (by norm_num) (by simp; norm_num) true (fun p hp => by
      simp only [hray, triple, Short, Matrix.cons_val]
      simp only [List.mem_cons, List.not_mem_nil, or_false] at hp
      rcases hp with rfl | rfl | rfl | rfl | rfl | rfl | rfl | rfl <;> norm_num [abs_le])
    (fun p _ => ⟨fun _ => 1, continuousOn_const, fun z _ _ => ⟨rfl, by norm_num, by norm_num⟩⟩)
  refine ⟨_, Xs, rfl, h1, h2.imp fun X p ⟨z, hz, hx, _⟩ => ?_⟩
  have hz' : z = 1 := (Fl.val.inj hz).symm
  subst hz'
  simp only [hray, Matrix.cons_val] at hx
  norm_num at hx ⊢
  exact hx

/-- A surface from 0 to 2 with pixels of 10 µm, below the same camera: the rays cross up to 75000 pixels. -/
example : demoCam.worldBoundary (.surface ⟨(1000, 1000), true, 0, 2, some (1 / 100000, -1 / 100000), true, fun _ _ => .val 1⟩) none true =
    .error .cvError := by
  have hl : pixelBoundary (K := ℝ) (4, 3) none = .ok [(0, 0), (3 / 2, 0), (3, 0), (3, 1), (3, 2), (3 / 2, 2), (0, 2), (0, 1)] := by
    simp [pixelBoundary]; norm_num
  have hb := C61_pinhole_boundary isPinhole_demoCam (by decide) (by decide) none _ hl
  refine (C80_long_fails (RayCam.of_pinhole isPinhole_demoCam).ext demoCam_horizon none _ hb _ (1 / 100000, -1 / 100000) rfl rfl
    (by decide) rfl (by simp) true).2 ⟨(0, 0), by simp, .inr (.inr (.inl ?_))⟩
  have hr := demoCam_ray (0, 0)
  have hm : min (2 : ℝ) 10 = 2 := by norm_num
  simp only [FrameCam.pointAtZ, FrameCam.toCam] at hr ⊢
  simp [hr, hm]
  norm_num

end

end Verif.Frame
