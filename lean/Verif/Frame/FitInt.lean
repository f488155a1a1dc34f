import Verif.Frame.Fit

/-!
# Fitting interior and exterior parameters of frame cameras to GCPs (C76)
-/

set_option autoImplicit false

namespace Verif.Frame

open Matrix Real
open Res (ok_bind error_bind)

noncomputable section

/-- orthority/fit.py:43-46 `_frame_num_params`. -/
def numParams (t : FrameType) : ℕ := (distNames t).length + 6

/-- What `cv2.calibrateCamera` and `cv2.fisheye.calibrate` return: intrinsic matrix, distortion coefficients, and a pose (rotation vector,
translation) for each image. -/
structure Calib where
  K : M3
  dist : List ℝ
  poses : List (V3 × V3)

/-- `np.std`. -/
def stdDev (l : List ℝ) : ℝ := sqrt ((l.map fun z => (z - l.sum / l.length) ^ 2).sum / l.length)

/-- orthority/fit.py:186-197: the tests of the number of GCPs.  `ceil(n / 2)` is `(n + 1) / 2`. -/
def checkCounts (t : FrameType) (gcps : Dict String (List Gcp)) : Res Unit :=
  if gcps = [] then .error .valueError
  else if gcps.any (fun g => decide (g.2.length < 4)) then .error .valueError
  else if (gcps.map fun g => g.2.length).sum < max 4 ((1 + numParams t + 1) / 2) then .error .valueError
  else .ok ()

/-- orthority/fit.py:202-206: the test for co-planar GCPs.  `np.vstack` raises `ValueError` for arrays of different length. -/
def checkPlane (xyzs : List (List V3)) : Res Unit :=
  if xyzs.any (fun l => decide (some l.length ≠ xyzs.head?.map List.length)) then .error .valueError
  else
    let zs : List ℝ := (xyzs.map fun l => l.map fun X => X 2).flatten
    if zs.sum / zs.length > 1 / 100000 ∨ stdDev zs > 1 / 100000 then .error .valueError
    else .ok ()

/-- orthority/fit.py:220-229 and 246-260: whether there are too few GCPs to fit the intrinsic matrix. -/
def fixIntrinsic (t : FrameType) (total : ℕ) : Bool :=
  if t = .fisheye then decide (total < (numParams t + 4 + 1 + 1) / 2) else decide (total < (numParams t + 3 + 1 + 1) / 2)

/-- orthority/fit.py:158-296 `_fit_frame`: `calibrate` is the OpenCV function for the type of camera, given the points, and whether the
intrinsic matrix is fixed; `camId` is the name of the camera.  The warning is not modelled. -/
def fitFrame (calibrate : FrameType → Bool → List (List V3) → List (List (ℝ × ℝ)) → ℕ × ℕ → Calib) (camId : FrameType → ℕ → String)
    (warp : Option (V3 → V3)) (t : FrameType) (im : ℕ × ℕ) (gcps : Dict String (List Gcp)) :
    Res (Dict String IntParam × Dict String ExtParam) := do
  checkCounts t gcps
  let total := (gcps.map fun g => g.2.length).sum
  let (jis, xyzs, ref) := gcpsToCv warp gcps
  checkPlane xyzs
  let c := calibrate t (fixIntrinsic t total) xyzs jis im
  let id := camId t total
  let i := fitInterior im c.K
  let dist : Dict String ℝ := Dict.ofItems ((distNames t).zip c.dist)
  let p : IntParam := ⟨t, im, i.1, some i.2.1, some i.2.2.1, some i.2.2.2, dist.get?⟩
  .ok ([(id, p)], Dict.ofItems (((gcps.map Prod.fst).zip c.poses).map fun a =>
    let xo := cvExtToOtyExt a.2.2 (rodrigues a.2.1) (some ref)
    (a.1, ⟨xo.1, xo.2, id⟩)))

/-! ## Specification -/

/-- OpenCV's projection of a point in camera coordinates, for `cv2.calibrateCamera` and for `cv2.fisheye.calibrate`. -/
def cvModel (t : FrameType) (K : M3) (d : List ℝ) (x : V3) : Fl ℝ × Fl ℝ :=
  if t = .fisheye then dotKFl K (fisheyeDistort (coef d 0) (coef d 1) (coef d 2) (coef d 3) (x 0 / x 2) (x 1 / x 2))
  else (.val (cvCamToPix K d x).1, .val (cvCamToPix K d x).2)

/-- What OpenCV gives for the flags that are set: an intrinsic matrix without skew, one pose for each image, and the coefficients of the
type of camera, which are five zeros for a pinhole camera. -/
structure Calib.Fits (c : Calib) (t : FrameType) (images : ℕ) : Prop where
  skew : c.K 0 1 = 0 ∧ c.K 1 0 = 0 ∧ c.K 2 0 = 0 ∧ c.K 2 1 = 0 ∧ c.K 2 2 = 1
  poses : c.poses.length = images
  dist : if t = .pinhole then c.dist = [0, 0, 0, 0, 0] else c.dist.length = (distNames t).length

/-- GCPs of all images at one height. -/
def Level (warp : Option (V3 → V3)) (gcps : Dict String (List Gcp)) : Prop :=
  ∃ z, ∀ g ∈ gcps, ∀ q ∈ g.2, q.world warp 2 = z

/-! ## Theorems -/

/-- What is fitted when the tests are passed. -/
theorem fitFrame_ok {calibrate : FrameType → Bool → List (List V3) → List (List (ℝ × ℝ)) → ℕ × ℕ → Calib} {camId : FrameType → ℕ → String}
    {warp : Option (V3 → V3)} {t : FrameType} {im : ℕ × ℕ} {gcps : Dict String (List Gcp)} {ints : Dict String IntParam}
    {ext : Dict String ExtParam} (h : fitFrame calibrate camId warp t im gcps = .ok (ints, ext)) :
    ∃ c id, c = calibrate t (fixIntrinsic t (gcps.map fun g => g.2.length).sum) (gcps.map fun g => g.2.map fun q => q.world warp - refPt warp gcps)
        (gcps.map fun q => q.2.map Gcp.ji) im ∧ checkCounts t gcps = .ok () ∧
      checkPlane (gcps.map fun g => g.2.map fun q => q.world warp - refPt warp gcps) = .ok () ∧
      ints = [(id, ⟨t, im, (fitInterior im c.K).1, some (fitInterior im c.K).2.1, some (fitInterior im c.K).2.2.1,
        some (fitInterior im c.K).2.2.2, Dict.get? (Dict.ofItems ((distNames t).zip c.dist))⟩)] ∧
      ext = Dict.ofItems (((gcps.map Prod.fst).zip c.poses).map fun a =>
        (a.1, (⟨(cvExtToOtyExt a.2.2 (rodrigues a.2.1) (some (refPt warp gcps))).1,
          (cvExtToOtyExt a.2.2 (rodrigues a.2.1) (some (refPt warp gcps))).2, id⟩ : ExtParam))) := by
  unfold fitFrame at h
  cases h1 : checkCounts t gcps with
  | error e => rw [h1] at h; cases h
  | ok u =>
    rw [h1, ok_bind] at h
    simp only [gcpsToCv_eq] at h
    cases h2 : checkPlane (gcps.map fun g => g.2.map fun q => q.world warp - refPt warp gcps) with
    | error e =>
      unfold refPt at h2
      rw [h2] at h
      cases h
    | ok u =>
      have h2' := h2
      unfold refPt at h2'
      rw [h2', ok_bind] at h
      have h := Except.ok.inj h
      injection h with ha hb
      exact ⟨_, _, rfl, rfl, rfl, ha.symm, hb.symm⟩

theorem coeff_zip (t : FrameType) (d : List ℝ) (h : d.length = (distNames t).length) (p : IntParam)
    (hp : p.dist = Dict.get? (Dict.ofItems ((distNames t).zip d))) : (distNames t).map p.coeff = d := by
  have hnd : (distNames t).Nodup := by cases t <;> decide
  have hk : (((distNames t).zip d).map Prod.fst) = distNames t := List.map_fst_zip (by omega)
  have key : ∀ (ks : List String) (vs : List ℝ), ks.Nodup → vs.length = ks.length →
      ks.map (fun k => ((Dict.get? (ks.zip vs : Dict String ℝ) k).getD 0)) = vs := by
    intro ks
    induction ks with
    | nil => intro vs _ hl; rw [List.length_nil, List.length_eq_zero_iff] at hl; subst hl; rfl
    | cons k ks ih =>
      intro vs hn hl
      match vs, hl with
      | v :: vs, hl =>
        rw [List.nodup_cons] at hn
        rw [List.map_cons, List.zip_cons_cons, Dict.get?_cons, if_pos rfl]
        congr 1
        rw [← ih vs hn.2 (by simpa using hl)]
        apply List.map_congr_left
        intro k' hk'
        rw [ih vs hn.2 (by simpa using hl), Dict.get?_cons, if_neg]
        rintro rfl
        exact hn.1 hk'
  rw [Dict.ofItems_ok (by unfold Dict.Ok; rw [hk]; exact hnd)] at hp
  have := key (distNames t) d hnd h
  conv_rhs => rw [← this]
  apply List.map_congr_left
  intro n _
  rw [IntParam.coeff, hp]

/-- The fitted camera projects camera coordinates as OpenCV does. -/
theorem camToPix_cvModel (t : FrameType) (c : Calib) (n : ℕ) (hc : c.Fits t n) (p : IntParam) (ht : p.camType = t)
    (hp : p.dist = Dict.get? (Dict.ofItems ((distNames t).zip c.dist))) (x : V3) (hx : x 2 ≠ 0) :
    p.camToPix c.K (FrameCam.unitDepth x) = cvModel t c.K c.dist x := by
  have hd := hc.dist
  by_cases hpin : t = .pinhole
  · rw [if_pos hpin] at hd
    rw [cvModel, if_neg (by rw [hpin]; decide), camToPix_cv p (by rw [ht, hpin]; decide) c.K x hx, ht, hpin, hd]
    have hcf : ∀ i, coef ([] : List ℝ) i = coef [0, 0, 0, 0, 0] i := by
      intro i
      match i with
      | 0 | 1 | 2 | 3 | 4 => rfl
      | i + 5 => simp [coef]
    simp only [distNames, List.map_nil, cvCamToPix, cvDistort, hcf]
  · rw [if_neg hpin] at hd
    have hz := coeff_zip t c.dist hd p hp
    by_cases hf : t = .fisheye
    · rw [cvModel, if_pos hf]
      unfold IntParam.camToPix
      rw [ht, hf]
      rw [hf] at hz
      rw [← hz]
      rfl
    · rw [cvModel, if_neg hf, camToPix_cv p (by rw [ht]; exact hf) c.K x hx, ht, hz]

/-- C76, the part that holds: the camera with the fitted interior and exterior parameters of an image projects every world point to where
OpenCV's calibrated model does, for each type of camera; so its reprojection error is the one that OpenCV minimised.  Missing: poses with
phi of 90 or -90 degrees (`C35_gimbal_fails`). -/
theorem C76_projection_partial (calibrate : FrameType → Bool → List (List V3) → List (List (ℝ × ℝ)) → ℕ × ℕ → Calib)
    (camId : FrameType → ℕ → String) (warp : Option (V3 → V3)) (t : FrameType) (im : ℕ × ℕ) (hw : 0 < im.1) (hh : 0 < im.2)
    (gcps : Dict String (List Gcp)) (hg : gcps.Ok) (ints : Dict String IntParam) (ext : Dict String ExtParam)
    (h : fitFrame calibrate camId warp t im gcps = .ok (ints, ext)) (c : Calib) (fixed : Bool)
    (hfix : fixed = fixIntrinsic t (gcps.map fun g => g.2.length).sum)
    (hcal : c = calibrate t fixed (gcps.map fun g => g.2.map fun q => q.world warp - refPt warp gcps) (gcps.map fun q => q.2.map Gcp.ji) im)
    (hc : c.Fits t gcps.length) :
    ∃ id p, ints = [(id, p)] ∧ ∀ (k : ℕ) (g : String × List Gcp) (pose : V3 × V3), gcps[k]? = some g → c.poses[k]? = some pose → ¬ Gimbal pose →
      ∃ e, ext[k]? = some (g.1, e) ∧ e.camera = id ∧ ∀ X : V3, (rodrigues pose.1 *ᵥ (X - refPt warp gcps) + pose.2) 2 ≠ 0 →
        p.project e X = .ok (cvModel t c.K c.dist (rodrigues pose.1 *ᵥ (X - refPt warp gcps) + pose.2)) := by
  obtain ⟨c', id, hc', -, -, hi, he⟩ := fitFrame_ok h
  rw [hfix, ← hc'] at hcal
  subst hcal
  obtain ⟨h01, h10, h20, h21, h22⟩ := hc.skew
  refine ⟨id, _, hi, ?_⟩
  intro k g pose hk hpk hgim
  have hokl : Dict.Ok (((gcps.map Prod.fst).zip c.poses).map fun a =>
        (a.1, (⟨(cvExtToOtyExt a.2.2 (rodrigues a.2.1) (some (refPt warp gcps))).1,
          (cvExtToOtyExt a.2.2 (rodrigues a.2.1) (some (refPt warp gcps))).2, id⟩ : ExtParam))) := by
    unfold Dict.Ok
    rw [List.map_map]
    change (((gcps.map Prod.fst).zip c.poses).map Prod.fst).Nodup
    rw [List.map_fst_zip (by rw [List.length_map, hc.poses])]
    exact hg
  rw [Dict.ofItems_ok hokl] at he
  refine ⟨⟨(cvExtToOtyExt pose.2 (rodrigues pose.1) (some (refPt warp gcps))).1,
          (cvExtToOtyExt pose.2 (rodrigues pose.1) (some (refPt warp gcps))).2, id⟩, ?_, rfl, ?_⟩
  · have hz : ((gcps.map Prod.fst).zip c.poses)[k]? = some (g.1, pose) := by
      rw [List.getElem?_zip_eq_some, List.getElem?_map, hk]
      exact ⟨rfl, hpk⟩
    rw [he, List.getElem?_map, hz]
    rfl
  · intro X hdep
    have hK : IntParam.intrinsic ⟨t, im, (fitInterior im c.K).1, some (fitInterior im c.K).2.1, some (fitInterior im c.K).2.2.1,
        some (fitInterior im c.K).2.2.2, Dict.get? (Dict.ofItems ((distNames t).zip c.dist))⟩ = .ok c.K :=
      C38_rebuild im hw hh c.K h01 h10 h20 h21 h22
    unfold IntParam.project
    rw [hK, ok_bind, FrameCam.camCoords]
    simp only
    rw [C35_rodrigues_partial pose.1 pose.2 X (some _) hgim, Option.getD_some]
    congr 1
    exact camToPix_cvModel t c _ hc _ rfl rfl _ hdep

/-- C76: four GCPs per image are needed, and in all 4 (pinhole), 6 (Brown, fisheye) or 11 (OpenCV); otherwise `ValueError` is raised. -/
theorem C76_counts (calibrate : FrameType → Bool → List (List V3) → List (List (ℝ × ℝ)) → ℕ × ℕ → Calib) (camId : FrameType → ℕ → String)
    (warp : Option (V3 → V3)) (t : FrameType) (im : ℕ × ℕ) (gcps : Dict String (List Gcp)) (need : ℕ)
    (hneed : need = match t with | .pinhole => 4 | .brown => 6 | .fisheye => 6 | .opencv => 11)
    (h : gcps = [] ∨ (∃ g ∈ gcps, g.2.length < 4) ∨ (gcps.map fun g => g.2.length).sum < need) :
    fitFrame calibrate camId warp t im gcps = .error .valueError := by
  have : checkCounts t gcps = .error .valueError := by
    unfold checkCounts
    by_cases h0 : gcps = []
    · rw [if_pos h0]
    rw [if_neg h0]
    by_cases h4 : (gcps.any fun g => decide (g.2.length < 4)) = true
    · rw [if_pos h4]
    rw [if_neg h4]
    rw [if_pos]
    rcases h with h | ⟨g, hg, hl⟩ | h
    · exact absurd h h0
    · exact absurd (List.any_eq_true.2 ⟨g, hg, by simpa using hl⟩) h4
    · rw [hneed] at h
      cases t <;> simpa [numParams, distNames] using h
  unfold fitFrame
  rw [this, error_bind]

theorem map_const_sum {A : Type} (l : List A) (f : A → ℝ) (z : ℝ) (h : ∀ a ∈ l, f a = z) : (l.map f).sum = l.length * z := by
  rw [List.map_congr_left (g := fun _ => z) h, List.map_const', List.sum_replicate, nsmul_eq_mul]

theorem checkCounts_cases (t : FrameType) (gcps : Dict String (List Gcp)) :
    checkCounts t gcps = .ok () ∨ checkCounts t gcps = .error .valueError := by
  unfold checkCounts
  split_ifs <;> simp

/-- C76: GCPs at one height, of images with the same number of GCPs, are accepted when there are enough. -/
theorem C76_level (calibrate : FrameType → Bool → List (List V3) → List (List (ℝ × ℝ)) → ℕ × ℕ → Calib) (camId : FrameType → ℕ → String)
    (warp : Option (V3 → V3)) (t : FrameType) (im : ℕ × ℕ) (gcps : Dict String (List Gcp)) (need : ℕ)
    (hneed : need = match t with | .pinhole => 4 | .brown => 6 | .fisheye => 6 | .opencv => 11) (h0 : gcps ≠ [])
    (h4 : ∀ g ∈ gcps, 4 ≤ g.2.length) (hn : need ≤ (gcps.map fun g => g.2.length).sum)
    (hsame : ∀ g ∈ gcps, ∀ g' ∈ gcps, g.2.length = g'.2.length) (hl : Level warp gcps) :
    ∃ r, fitFrame calibrate camId warp t im gcps = .ok r := by
  have h1 : checkCounts t gcps = .ok () := by
    unfold checkCounts
    rw [if_neg h0, if_neg, if_neg]
    · rw [not_lt]
      rw [hneed] at hn
      cases t <;> simpa [numParams, distNames] using hn
    · rw [List.any_eq_true]
      rintro ⟨g, hg, hlt⟩
      have := h4 g hg
      simp at hlt
      omega
  have h2 : checkPlane (gcps.map fun g => g.2.map fun q => q.world warp - refPt warp gcps) = .ok () := by
    obtain ⟨z, hz⟩ := hl
    have hne : (gcps.map fun g => g.2.map fun q => q.world warp).flatten ≠ [] := by
      obtain ⟨g, hg⟩ := List.exists_mem_of_ne_nil gcps h0
      have hlen := h4 g hg
      have hgne : g.2 ≠ [] := by
        intro h
        rw [h] at hlen
        simp at hlen
      obtain ⟨q, hq⟩ := List.exists_mem_of_ne_nil g.2 hgne
      intro h
      have : q.world warp ∈ (gcps.map fun g => g.2.map fun q => q.world warp).flatten :=
        List.mem_flatten.2 ⟨_, List.mem_map.2 ⟨g, hg, rfl⟩, List.mem_map.2 ⟨q, hq, rfl⟩⟩
      rw [h] at this
      simp at this
    have hall : ∀ X ∈ (gcps.map fun g => g.2.map fun q => q.world warp).flatten, X 2 = z := by
      intro X hX
      obtain ⟨l, hlm, hXl⟩ := List.mem_flatten.1 hX
      obtain ⟨g, hg, rfl⟩ := List.mem_map.1 hlm
      obtain ⟨q, hq, rfl⟩ := List.mem_map.1 hXl
      exact hz g hg q hq
    have href : refPt warp gcps 2 = z := by
      unfold refPt meanPt
      rw [map_const_sum _ _ z hall]
      have : (((gcps.map fun g => g.2.map fun q => q.world warp).flatten.length : ℕ) : ℝ) ≠ 0 := by
        rw [Nat.cast_ne_zero]
        exact fun h => hne (List.length_eq_zero_iff.1 h)
      field_simp
    unfold checkPlane
    rw [if_neg]
    · have hzero : ∀ w ∈ ((gcps.map fun g => g.2.map fun q => q.world warp - refPt warp gcps).map fun l => l.map fun X : V3 => X 2).flatten, w = 0 := by
        intro w hw
        obtain ⟨l, hlm, hXl⟩ := List.mem_flatten.1 hw
        obtain ⟨l', hl', rfl⟩ := List.mem_map.1 hlm
        obtain ⟨g, hg, rfl⟩ := List.mem_map.1 hl'
        obtain ⟨X, hX, rfl⟩ := List.mem_map.1 hXl
        obtain ⟨q, hq, rfl⟩ := List.mem_map.1 hX
        rw [Pi.sub_apply, hz g hg q hq, href, sub_self]
      simp only
      generalize ((gcps.map fun g => g.2.map fun q => q.world warp - refPt warp gcps).map fun l => l.map fun X : V3 => X 2).flatten = zs at *
      have hs : zs.sum = 0 := by
        have := map_const_sum zs id 0 hzero
        simpa using this
      rw [if_neg]
      rw [hs]
      have : stdDev zs = 0 := by
        unfold stdDev
        rw [map_const_sum zs _ 0 (fun w hw => by rw [hzero w hw, hs]; simp)]
        simp
      rw [this]
      norm_num
    · rw [List.any_eq_true]
      rintro ⟨l, hlm, hd⟩
      obtain ⟨g, hg, rfl⟩ := List.mem_map.1 hlm
      obtain ⟨a, l, rfl⟩ := List.exists_cons_of_ne_nil h0
      have := hsame g hg a List.mem_cons_self
      simp [this] at hd
  cases hf : fitFrame calibrate camId warp t im gcps with
  | ok r => exact ⟨r, rfl⟩
  | error e =>
    unfold fitFrame at hf
    rw [h1, ok_bind] at hf
    simp only [gcpsToCv_eq] at hf
    unfold refPt at h2
    rw [h2, ok_bind] at hf
    cases hf

theorem sum_map_sub (l : List ℝ) (m : ℝ) : (l.map fun z => z - m).sum = l.sum - l.length * m := by
  induction l with
  | nil => simp
  | cons a l ih =>
    simp only [List.map_cons, List.sum_cons, List.length_cons, ih]
    push_cast
    ring

/-- C76: given enough GCPs, the same number for each image, the images are fitted when the standard deviation of the GCP heights is
at most 1/100000 of a metre, and `ValueError` is raised when it is more. -/
theorem C76_heights (calibrate : FrameType → Bool → List (List V3) → List (List (ℝ × ℝ)) → ℕ × ℕ → Calib) (camId : FrameType → ℕ → String)
    (warp : Option (V3 → V3)) (t : FrameType) (im : ℕ × ℕ) (gcps : Dict String (List Gcp)) (need : ℕ)
    (hneed : need = match t with | .pinhole => 4 | .brown => 6 | .fisheye => 6 | .opencv => 11) (h0 : gcps ≠ [])
    (h4 : ∀ g ∈ gcps, 4 ≤ g.2.length) (hn : need ≤ (gcps.map fun g => g.2.length).sum)
    (hsame : ∀ g ∈ gcps, ∀ g' ∈ gcps, g.2.length = g'.2.length) (hs : List ℝ)
    (hhs : hs = gcps.flatMap fun g => g.2.map fun q => q.world warp 2) (mean : ℝ) (hmean : mean = hs.sum / hs.length) :
    ((hs.map fun z => (z - mean) ^ 2).sum / (hs.length : ℝ) ≤ (1 / 100000) ^ 2 → ∃ r, fitFrame calibrate camId warp t im gcps = .ok r) ∧
    ((1 / 100000) ^ 2 < (hs.map fun z => (z - mean) ^ 2).sum / (hs.length : ℝ) →
      fitFrame calibrate camId warp t im gcps = .error .valueError) := by
  have h1 : checkCounts t gcps = .ok () := by
    unfold checkCounts
    rw [if_neg h0, if_neg, if_neg]
    · rw [not_lt]
      rw [hneed] at hn
      cases t <;> simpa [numParams, distNames] using hn
    · rw [List.any_eq_true]
      rintro ⟨g, hg, hlt⟩
      have := h4 g hg
      simp at hlt
      omega
  have hne : hs ≠ [] := by
    obtain ⟨g, hg⟩ := List.exists_mem_of_ne_nil gcps h0
    have hlen := h4 g hg
    have hgne : g.2 ≠ [] := by
      intro h
      rw [h] at hlen
      simp at hlen
    obtain ⟨q, hq⟩ := List.exists_mem_of_ne_nil g.2 hgne
    intro h
    have : q.world warp 2 ∈ hs := by
      rw [hhs]
      exact List.mem_flatMap.2 ⟨g, hg, List.mem_map.2 ⟨q, hq, rfl⟩⟩
    rw [h] at this
    simp at this
  have hlen : ((hs.length : ℕ) : ℝ) ≠ 0 := by
    rw [Nat.cast_ne_zero]
    exact fun h => hne (List.length_eq_zero_iff.1 h)
  have hworld : ((gcps.map fun g => g.2.map fun q => q.world warp).flatten.map fun X => X 2) = hs := by
    rw [hhs, List.map_flatten, List.flatMap_def, List.map_map]
    simp [Function.comp_def]
  have href : refPt warp gcps 2 = mean := by
    unfold refPt meanPt
    rw [hmean, ← hworld, List.length_map]
  have hzs : ((gcps.map fun g => g.2.map fun q => q.world warp - refPt warp gcps).map fun l => l.map fun X : V3 => X 2).flatten =
      hs.map fun z => z - mean := by
    rw [hhs, List.flatMap_def, List.map_flatten, List.map_map, List.map_map]
    congr 2
    funext g
    simp [href]
  have hsum : (hs.map fun z => z - mean).sum = 0 := by
    rw [sum_map_sub, hmean]
    field_simp
    ring
  have hstd : stdDev (hs.map fun z => z - mean) = sqrt ((hs.map fun z => (z - mean) ^ 2).sum / hs.length) := by
    unfold stdDev
    rw [hsum, List.map_map, List.length_map]
    simp [Function.comp_def]
  have hany : ¬ ((gcps.map fun g => g.2.map fun q => q.world warp - refPt warp gcps).any
      (fun l => decide (some l.length ≠ (gcps.map fun g => g.2.map fun q => q.world warp - refPt warp gcps).head?.map List.length)) = true) := by
    rw [List.any_eq_true]
    rintro ⟨l, hlm, hd⟩
    obtain ⟨g, hg, rfl⟩ := List.mem_map.1 hlm
    obtain ⟨a, l, rfl⟩ := List.exists_cons_of_ne_nil h0
    have := hsame g hg a List.mem_cons_self
    simp [this] at hd
  have h2 : checkPlane (gcps.map fun g => g.2.map fun q => q.world warp - refPt warp gcps) =
      if sqrt ((hs.map fun z => (z - mean) ^ 2).sum / hs.length) > 1 / 100000 then .error .valueError else .ok () := by
    unfold checkPlane
    rw [if_neg hany]
    simp only [hzs, hsum, hstd]
    congr 1
    simp
  have hfit : fitFrame calibrate camId warp t im gcps = (checkPlane (gcps.map fun g => g.2.map fun q => q.world warp - refPt warp gcps) >>=
      fun _ => fitFrame calibrate camId warp t im gcps) := by
    cases hp : checkPlane (gcps.map fun g => g.2.map fun q => q.world warp - refPt warp gcps) with
    | ok u => rfl
    | error e =>
      rw [error_bind]
      unfold fitFrame
      rw [h1, ok_bind]
      simp only [gcpsToCv_eq]
      unfold refPt at hp
      rw [hp, error_bind]
  constructor
  · intro hle
    rw [if_neg (by
      rw [gt_iff_lt, not_lt]
      exact Real.sqrt_le_iff.2 ⟨by norm_num, hle⟩)] at h2
    cases hf : fitFrame calibrate camId warp t im gcps with
    | ok r => exact ⟨r, rfl⟩
    | error e =>
      unfold fitFrame at hf
      rw [h1, ok_bind] at hf
      simp only [gcpsToCv_eq] at hf
      unfold refPt at h2
      rw [h2, ok_bind] at hf
      cases hf
  · intro hlt
    rw [if_pos (by
      rw [gt_iff_lt]
      exact (Real.lt_sqrt (by norm_num)).2 hlt)] at h2
    rw [hfit, h2, error_bind]

/-- Two images of four GCPs at heights 0 and 1 by turns: not level. -/
example : ∃ (gcps : Dict String (List Gcp)) (hs : List ℝ), gcps ≠ [] ∧ (∀ g ∈ gcps, 4 ≤ g.2.length) ∧
    (∀ g ∈ gcps, ∀ g' ∈ gcps, g.2.length = g'.2.length) ∧ hs = gcps.flatMap (fun g => g.2.map fun q => q.world none 2) ∧
    ((1 / 100000 : ℝ)) ^ 2 < (hs.map fun z => (z - hs.sum / hs.length) ^ 2).sum / hs.length := by
  refine ⟨[("a", [⟨(0, 0), ![0, 0, 0]⟩, ⟨(1, 0), ![1, 0, 1]⟩, ⟨(0, 1), ![0, 1, 0]⟩, ⟨(1, 1), ![1, 1, 1]⟩])], [0, 1, 0, 1], by simp, by simp,
    by simp, by simp [Gcp.world], by norm_num⟩

/-- Where C76 fails: only the pose of one image is counted.  Two or three images with four GCPs each, at one height, are accepted for a
Brown camera, and its intrinsic matrix is fitted, without a warning, though they give fewer equations than there are parameters: six for
the pose of each image, five coefficients, the principal point, and the focal length. -/
theorem C76_images_fails (calibrate : FrameType → Bool → List (List V3) → List (List (ℝ × ℝ)) → ℕ × ℕ → Calib) (camId : FrameType → ℕ → String)
    (warp : Option (V3 → V3)) (im : ℕ × ℕ) (gcps : Dict String (List Gcp)) (h2 : gcps.length = 2 ∨ gcps.length = 3)
    (h4 : ∀ g ∈ gcps, g.2.length = 4) (hl : Level warp gcps) (total : ℕ) (ht : total = (gcps.map fun g => g.2.length).sum) :
    (∃ r, fitFrame calibrate camId warp .brown im gcps = .ok r) ∧ fixIntrinsic .brown total = false ∧
      2 * total < 6 * gcps.length + 5 + 3 := by
  have hs : total = 4 * gcps.length := by
    rw [ht, List.map_congr_left (g := fun _ => 4) h4, List.map_const', List.sum_replicate, smul_eq_mul, mul_comm]
  have hne : gcps ≠ [] := by rintro rfl; simp at h2
  refine ⟨C76_level calibrate camId warp .brown im gcps 6 rfl hne (fun g hg => (h4 g hg).ge) (by omega)
    (fun g hg g' hg' => (h4 g hg).trans (h4 g' hg').symm) hl, ?_, by omega⟩
  unfold fixIntrinsic numParams
  rw [if_neg (by decide)]
  simp [distNames]
  omega

/-- C76: images with different numbers of GCPs cannot be fitted together: `ValueError` is raised, without saying why. -/
theorem C76_counts_fails (calibrate : FrameType → Bool → List (List V3) → List (List (ℝ × ℝ)) → ℕ × ℕ → Calib) (camId : FrameType → ℕ → String)
    (warp : Option (V3 → V3)) (t : FrameType) (im : ℕ × ℕ) (gcps : Dict String (List Gcp)) (g g' : String × List Gcp) (hg : g ∈ gcps)
    (hg' : g' ∈ gcps) (hne : g.2.length ≠ g'.2.length) : fitFrame calibrate camId warp t im gcps = .error .valueError := by
  unfold fitFrame
  rcases checkCounts_cases t gcps with h | h
  · rw [h, ok_bind]
    simp only [gcpsToCv_eq]
    have h2 : checkPlane (gcps.map fun g => g.2.map fun q => q.world warp -
        meanPt (gcps.map fun g => g.2.map fun q => q.world warp).flatten) = .error .valueError := by
      unfold checkPlane
      rw [if_pos]
      rw [List.any_eq_true]
      by_contra hc
      push Not at hc
      have key : ∀ a ∈ gcps, some a.2.length = gcps.head?.map fun b => b.2.length := by
        intro a ha
        have := hc _ (List.mem_map.2 ⟨a, ha, rfl⟩)
        simp [List.head?_map] at this
        obtain ⟨n, b, hb, hl⟩ := this
        rw [hb, ← hl]
        rfl
      have h1 := key g hg
      rw [← key g' hg'] at h1
      exact hne (Option.some.inj h1)
    rw [h2, error_bind]
  · rw [h, error_bind]

/-- C76: the intrinsic matrix is kept at OpenCV's initial value exactly when the GCPs give fewer than one equation more than there are
parameters of one image: six for the pose, the coefficients, the principal point, and one focal length (two for fisheye cameras). -/
theorem C76_fixed (t : FrameType) (total params : ℕ)
    (hp : params = match t with | .pinhole => 6 + 3 | .brown => 6 + 5 + 3 | .opencv => 6 + 14 + 3 | .fisheye => 6 + 4 + 4) :
    fixIntrinsic t total = true ↔ 2 * total < params + 1 := by
  subst hp
  cases t <;> simp [fixIntrinsic, numParams, distNames] <;> omega

/-- C76: GCPs on a plane that is not level are refused as not co-planar. -/
theorem C76_tilted_fails (calibrate : FrameType → Bool → List (List V3) → List (List (ℝ × ℝ)) → ℕ × ℕ → Calib) (camId : FrameType → ℕ → String)
    (im : ℕ × ℕ) (a b c d : ℝ × ℝ) (gcps : List Gcp)
    (hg : gcps = [⟨a, ![0, 0, 0]⟩, ⟨b, ![1, 0, 1]⟩, ⟨c, ![0, 1, 0]⟩, ⟨d, ![1, 1, 1]⟩]) :
    (∀ g ∈ gcps, g.xyz 2 = g.xyz 0) ∧ fitFrame calibrate camId none .pinhole im [("a.tif", gcps)] = .error .valueError := by
  subst hg
  constructor
  · intro g hg
    simp at hg
    rcases hg with rfl | rfl | rfl | rfl <;> simp
  · unfold fitFrame
    have h1 : checkCounts .pinhole [("a.tif", [⟨a, ![0, 0, 0]⟩, ⟨b, ![1, 0, 1]⟩, ⟨c, ![0, 1, 0]⟩, ⟨d, ![1, 1, 1]⟩])] = .ok () := by
      unfold checkCounts
      rw [if_neg (by simp), if_neg (by simp), if_neg (by simp [numParams, distNames])]
    rw [h1, ok_bind]
    simp only [gcpsToCv_eq]
    have h2 : ∀ ref : V3, ref 2 = 1 / 2 → checkPlane ([("a.tif", [(⟨a, ![0, 0, 0]⟩ : Gcp), ⟨b, ![1, 0, 1]⟩, ⟨c, ![0, 1, 0]⟩, ⟨d, ![1, 1, 1]⟩])].map
        fun g => g.2.map fun q => q.world none - ref) = .error .valueError := by
      intro ref href
      unfold checkPlane
      rw [if_neg (by simp)]
      simp only [List.map_cons, List.map_nil, List.flatten_cons, List.flatten_nil, List.append_nil, Gcp.world, Pi.sub_apply, href]
      rw [if_pos]
      right
      have : stdDev [(![0, 0, 0] : V3) 2 - 1 / 2, (![1, 0, 1] : V3) 2 - 1 / 2, (![0, 1, 0] : V3) 2 - 1 / 2, (![1, 1, 1] : V3) 2 - 1 / 2] = sqrt ((1 / 2) ^ 2) := by
        unfold stdDev
        congr 1
        simp
        norm_num
      rw [this, sqrt_sq (by norm_num)]
      norm_num
    rw [h2 _ ?_, error_bind]
    simp [meanPt, Gcp.world]
    norm_num

/-! ### Concrete cases for C76 -/

/-- Two images with four GCPs each at one height meet the conditions of `C76_level`, for a Brown camera. -/
example : let gs : List Gcp := [⟨(0, 0), ![0, 0, 5]⟩, ⟨(9, 0), ![9, 0, 5]⟩, ⟨(0, 9), ![0, 9, 5]⟩, ⟨(9, 9), ![9, 9, 5]⟩]
    Level none [("a.tif", gs), ("b.tif", gs)] ∧ 6 ≤ ([("a.tif", gs), ("b.tif", gs)].map fun g => g.2.length).sum := by
  refine ⟨⟨5, ?_⟩, by decide⟩
  intro g hg q hq
  simp at hg
  rcases hg with rfl | rfl <;> simp at hq <;> rcases hq with rfl | rfl | rfl | rfl <;> simp [Gcp.world]

/-- A calibration as OpenCV gives it. -/
example : Calib.Fits ⟨kMat (100, 101) (4, 5), [1 / 10, 0, 0, 0, 1 / 100], [(0, ![0, 0, 5]), (0, ![1, 0, 5])]⟩ .brown 2 :=
  ⟨by simp [kMat], rfl, by simp [distNames]⟩

/-- `fixIntrinsic`: with eight GCPs the intrinsic matrix of a pinhole camera is fitted, and that of an OpenCV camera is not. -/
example : fixIntrinsic .pinhole 8 = false ∧ fixIntrinsic .opencv 11 = true ∧ fixIntrinsic .fisheye 7 = true := by decide

end

end Verif.Frame
