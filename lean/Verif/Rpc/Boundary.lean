import Verif.Rpc.Inverse
import Verif.Frame.WorldBoundary

/-!
# World boundaries of RPC and GCP cameras (C108)
-/

set_option autoImplicit false

namespace Verif.RpcCam

open Verif.Frame (Short raySteps_lt_iff maxRaySteps_ge Surface BoundaryZ pixelBoundary linspace raySteps maxRaySteps hits surfPoint sampleZ AtOrBelow)
open Res (ok_bind error_bind)

noncomputable section

/-! ## Model -/

/-- A world point, with coordinates that can be `nan`. -/
abbrev FlPt := Fl ℝ × Fl ℝ × Fl ℝ

/-- Whether a sample of a ray is at or below the surface, orthority/camera.py:155-161: the surface is `nan` outside its bounds and
where the (x, y) coordinates are `nan`, and comparisons with `nan` are false. -/
def hitsFl (surf : ℝ → ℝ → Fl ℝ) : FlPt → Bool
  | (.val x, .val y, .val z) => hits surf (x, y, z)
  | _ => false

/-- The number of samples of a ray, orthority/camera.py:145-147.  With a `nan` coordinate the conversion to an integer gives a large
negative number, which `np.linspace` refuses (`none`).  Infinite coordinates are not modelled. -/
def rayStepsFl (cap : ℕ) (res : ℝ × ℝ) : FlPt → FlPt → Option ℕ
  | (.val x, .val y, _), (.val x', .val y', _) => some (raySteps cap res (x, y, 0) (x', y', 0))
  | _, _ => none

/-- The loop body of `Camera._pixel_to_world_surf`, orthority/camera.py:139-164: `p2w` is `pixel_to_world_z` of the camera.  `cv2.remap`
refuses a surface or a ray of 32767 (`SHRT_MAX`) or more pixels or samples in one dimension. -/
def rayPoint (p2w : List (Fl ℝ × Fl ℝ) → ZArg ℝ → Res (List FlPt)) (s : Surface) (res : ℝ × ℝ) (p : ℝ × ℝ) (start stop : FlPt) :
    Res FlPt :=
  match rayStepsFl (maxRaySteps s.shape.1 s.shape.2) res start stop with
  | none => .error .valueError
  | some n =>
    match p2w (pix [p]) (.array ((linspace s.maxZ s.minZ n).map Fl.val)) with
    | .error e => .error e
    | .ok ray =>
      if s.interpIsEnum = false then .error .attributeError
      else if 32767 ≤ s.shape.1 ∨ 32767 ≤ s.shape.2 ∨ 32767 ≤ n then .error .cvError
      else match ray.find? (hitsFl s.surf) with
        | some X => .ok X
        | none => .ok (ray.getLastD (.val 0, .val 0, .val 0))

/-- The loop over pixels, orthority/camera.py:137-165. -/
def raysLoop (p2w : List (Fl ℝ × Fl ℝ) → ZArg ℝ → Res (List FlPt)) (s : Surface) (res : ℝ × ℝ) :
    List (ℝ × ℝ) → List FlPt → List FlPt → Res (List FlPt)
  | p :: ji, a :: start, b :: stop =>
    match rayPoint p2w s res p a b with
    | .error e => .error e
    | .ok X => match raysLoop p2w s res ji start stop with
      | .error e => .error e
      | .ok Xs => .ok (X :: Xs)
  | _, _, _ => .ok []

/-- orthority/camera.py:103-165 `Camera._pixel_to_world_surf`, with `min_z` and `max_z` as by default. -/
def surfBoundary (p2w : List (Fl ℝ × Fl ℝ) → ZArg ℝ → Res (List FlPt)) (ji : List (ℝ × ℝ)) (s : Surface) (res : ℝ × ℝ) :
    Res (List FlPt) :=
  if s.dtypeOk = false then .error .valueError
  else if 32767 < s.shape.1 ∨ 32767 < s.shape.2 then .error .valueError
  else do
    let minXyz ← p2w (pix ji) (.scalar (.val s.minZ))
    let maxXyz ← p2w (pix ji) (.scalar (.val s.maxZ))
    raysLoop p2w s res ji maxXyz minXyz

/-- orthority/camera.py:245-285 `Camera.world_boundary`, that of RPC and GCP cameras. -/
def baseBoundary (p2w : List (Fl ℝ × Fl ℝ) → ZArg ℝ → Res (List FlPt)) (im : ℕ × ℕ) (z : BoundaryZ) (num : Option ℤ) :
    Res (List FlPt) := do
  let ji ← pixelBoundary im num
  match z with
  | .scalar z => p2w (pix ji) (.scalar (.val z))
  | .surface s => match s.res with
    | none => .error .valueError
    | some res => surfBoundary p2w ji s res
  | .other => .error .valueError

/-- Transforms of a point to and from the CRS of a camera. -/
abbrev Warps := (ℝ × ℝ × ℝ → FlPt) × (ℝ × ℝ × ℝ → FlPt)

/-- `RpcCamera.world_boundary`: orthority/camera.py:245-285 with `pixel_to_world_z` of lines 491-511. -/
def rpcBoundary (inv : ℝ × ℝ → ℝ → ℝ × ℝ) (warps : Option Warps) (im : ℕ × ℕ) (z : BoundaryZ) (num : Option ℤ) : Res (List FlPt) :=
  baseBoundary (pixelToWorldZ inv (warps.map Prod.fst)) im z num

/-- `GcpCamera.world_boundary`: orthority/camera.py:245-285 with `pixel_to_world_z` of lines 541-556. -/
def gcpBoundary (inv : ℝ × ℝ → ℝ → ℝ × ℝ) (im : ℕ × ℕ) (z : BoundaryZ) (num : Option ℤ) : Res (List FlPt) :=
  baseBoundary (gcpPixelToWorldZ inv) im z num

/-! ## Specification -/

/-- GDAL's reverse transform is right for pixel `p` (its centre at whole numbers) and height `z`: the longitude and latitude that it finds
project onto the pixel; and there the transforms of the camera's CRS are inverse, and keep the height. -/
structure RightAt (inv : ℝ × ℝ → ℝ → ℝ × ℝ) (r : Rpc ℝ) (warps : Option Warps) (p : ℝ × ℝ) (z : ℝ) : Prop where
  defined : Defined r ((inv (p.1 + 1 / 2, p.2 + 1 / 2) z).1, (inv (p.1 + 1 / 2, p.2 + 1 / 2) z).2, z)
  project : project r ((inv (p.1 + 1 / 2, p.2 + 1 / 2) z).1, (inv (p.1 + 1 / 2, p.2 + 1 / 2) z).2, z) = p
  crs : ∀ fwd back, warps = some (fwd, back) → ∃ x y,
    fwd ((inv (p.1 + 1 / 2, p.2 + 1 / 2) z).1, (inv (p.1 + 1 / 2, p.2 + 1 / 2) z).2, z) = (.val x, .val y, .val z) ∧
    back (x, y, z) = (.val (inv (p.1 + 1 / 2, p.2 + 1 / 2) z).1, .val (inv (p.1 + 1 / 2, p.2 + 1 / 2) z).2, .val z)

/-- The world point of a pixel at a height: found by GDAL's reverse transform, and transformed to the camera's CRS if there is one. -/
def Ground (inv : ℝ × ℝ → ℝ → ℝ × ℝ) (warps : Option Warps) (p : ℝ × ℝ) (z : ℝ) (X : ℝ × ℝ × ℝ) : Prop :=
  match warps with
  | none => X = ((inv (p.1 + 1 / 2, p.2 + 1 / 2) z).1, (inv (p.1 + 1 / 2, p.2 + 1 / 2) z).2, z)
  | some w => w.1 ((inv (p.1 + 1 / 2, p.2 + 1 / 2) z).1, (inv (p.1 + 1 / 2, p.2 + 1 / 2) z).2, z) = (.val X.1, .val X.2.1, .val X.2.2)

/-- A world point as `world_boundary` returns it. -/
def flPt (X : ℝ × ℝ × ℝ) : FlPt := (.val X.1, .val X.2.1, .val X.2.2)

/-! ## Lemmas -/

/-- The world point as numbers (zero for `nan`). -/
def ground (inv : ℝ × ℝ → ℝ → ℝ × ℝ) (warps : Option Warps) (p : ℝ × ℝ) (z : ℝ) : ℝ × ℝ × ℝ :=
  match worldPoint inv (warps.map Prod.fst) p.1 p.2 z with
  | (.val x, .val y, .val z) => (x, y, z)
  | _ => (0, 0, 0)

theorem RightAt.point {inv : ℝ × ℝ → ℝ → ℝ × ℝ} {r : Rpc ℝ} {warps : Option Warps} {p : ℝ × ℝ} {z : ℝ}
    (h : RightAt inv r warps p z) : worldPoint inv (warps.map Prod.fst) p.1 p.2 z = flPt (ground inv warps p z) ∧
      (ground inv warps p z).2.2 = z ∧ Ground inv warps p z (ground inv warps p z) ∧
      evalPoint r (toRpcCrs (warps.map Prod.snd) (flPt (ground inv warps p z))) = (.val p.1, .val p.2) := by
  have he := evalPoint_val r _ h.defined
  rw [h.project] at he
  cases hw : warps with
  | none => exact ⟨rfl, rfl, rfl, he⟩
  | some w =>
    obtain ⟨fwd, back⟩ := w
    obtain ⟨x, y, h1, h2⟩ := h.crs fwd back hw
    have hp : worldPoint inv ((some (fwd, back)).map Prod.fst) p.1 p.2 z = (.val x, .val y, .val z) := h1
    have hg : ground inv (some (fwd, back)) p z = (x, y, z) := by
      unfold ground; rw [hp]
    rw [hg, hp]
    refine ⟨rfl, rfl, h1, ?_⟩
    show evalPoint r (back (x, y, z)) = _
    rw [h2]
    exact he

/-- All coordinates of the world point are numbers. -/
def FiniteAt (inv : ℝ × ℝ → ℝ → ℝ × ℝ) (warps : Option Warps) (p : ℝ × ℝ) (z : ℝ) : Prop :=
  worldPoint inv (warps.map Prod.fst) p.1 p.2 z = flPt (ground inv warps p z)

theorem scalar_raw (inv : ℝ × ℝ → ℝ → ℝ × ℝ) (w : Option (ℝ × ℝ × ℝ → FlPt)) (l : List (ℝ × ℝ)) (z : ℝ) :
    pixelToWorldZ inv w (pix l) (.scalar (.val z)) = .ok (l.map fun p => worldPoint inv w p.1 p.2 z) := by
  have hpl : (pix l).length = l.length := by simp [pix]
  obtain ⟨out, ho, hlen, hpt⟩ := C73_pointwise inv w (pix l) (.scalar (.val z)) _ (Heights.scalar _ _)
  rw [ho]
  congr 1
  apply List.ext_getElem?
  intro k
  rw [List.getElem?_map]
  by_cases hk : k < l.length
  · have h1 : (pix l)[k]? = some (.val l[k].1, .val l[k].2) := by simp [pix, hk]
    have h2 : (List.replicate (pix l).length (Fl.val z))[k]? = some (.val z) := by simp [hpl, hk]
    rw [(hpt k _ _ _ h1 h2).1 _ _ _ rfl rfl rfl]
    simp [hk]
  · rw [List.getElem?_eq_none (by omega), List.getElem?_eq_none (by omega)]
    rfl

theorem array_raw (inv : ℝ × ℝ → ℝ → ℝ × ℝ) (w : Option (ℝ × ℝ × ℝ → FlPt)) (p : ℝ × ℝ) (zs : List ℝ) :
    pixelToWorldZ inv w (pix [p]) (.array (zs.map Fl.val)) = .ok (zs.map fun z => worldPoint inv w p.1 p.2 z) := by
  show pixelToWorldZ inv _ [(Fl.val p.1, Fl.val p.2)] _ = _
  rw [C73_one_pixel]
  have hh : Heights ((zs.map Fl.val).map fun _ => (Fl.val p.1, Fl.val p.2)).length (.array (zs.map Fl.val)) (zs.map Fl.val) := by
    have := Heights.array (zs.map Fl.val)
    rwa [← List.length_map (as := zs.map Fl.val) (fun _ => (Fl.val p.1, Fl.val p.2))] at this
  obtain ⟨out, ho, hlen, hpt⟩ := C73_pointwise inv w _ _ _ hh
  rw [ho]
  congr 1
  apply List.ext_getElem?
  intro k
  rw [List.getElem?_map]
  by_cases hk : k < zs.length
  · have h1 : ((zs.map Fl.val).map fun _ => (Fl.val p.1, Fl.val p.2))[k]? = some (.val p.1, .val p.2) := by simp [hk]
    have h2 : (zs.map Fl.val)[k]? = some (.val zs[k]) := by simp [hk]
    rw [(hpt k _ _ _ h1 h2).1 _ _ _ rfl rfl rfl]
    simp [hk]
  · rw [List.getElem?_eq_none (by simp at hlen; omega), List.getElem?_eq_none (by omega)]
    rfl

theorem scalar_eq (inv : ℝ × ℝ → ℝ → ℝ × ℝ) (warps : Option Warps) (l : List (ℝ × ℝ)) (z : ℝ)
    (h : ∀ p ∈ l, FiniteAt inv warps p z) :
    pixelToWorldZ inv (warps.map Prod.fst) (pix l) (.scalar (.val z)) = .ok (l.map fun p => flPt (ground inv warps p z)) := by
  rw [scalar_raw]
  exact congrArg _ (List.map_congr_left h)

theorem array_eq (inv : ℝ × ℝ → ℝ → ℝ × ℝ) (warps : Option Warps) (p : ℝ × ℝ) (zs : List ℝ)
    (h : ∀ z ∈ zs, FiniteAt inv warps p z) :
    pixelToWorldZ inv (warps.map Prod.fst) (pix [p]) (.array (zs.map Fl.val)) = .ok (zs.map fun z => flPt (ground inv warps p z)) := by
  rw [array_raw]
  exact congrArg _ (List.map_congr_left h)

theorem find_flPt (surf : ℝ → ℝ → Fl ℝ) (l : List (ℝ × ℝ × ℝ)) :
    (l.map flPt).find? (hitsFl surf) = (l.find? (hits surf)).map flPt := by
  rw [List.find?_map]
  rfl

theorem getLastD_flPt (l : List (ℝ × ℝ × ℝ)) :
    (l.map flPt).getLastD (.val 0, .val 0, .val 0) = flPt (l.getLastD (0, 0, 0)) := by
  induction l using List.reverseRecOn with
  | nil => rfl
  | append_singleton l a _ => simp

theorem rayPoint_eq (inv : ℝ × ℝ → ℝ → ℝ × ℝ) (warps : Option Warps) (s : Surface) (hm : s.minZ ≤ s.maxZ)
    (hsh : s.shape.1 < 32767 ∧ s.shape.2 < 32767) (hi : s.interpIsEnum = true) (res : ℝ × ℝ) (p : ℝ × ℝ)
    (h : ∀ z, s.minZ ≤ z → z ≤ s.maxZ → FiniteAt inv warps p z)
    (hs : Short res (ground inv warps p s.maxZ) (ground inv warps p s.minZ)) :
    rayPoint (pixelToWorldZ inv (warps.map Prod.fst)) s res p (flPt (ground inv warps p s.maxZ)) (flPt (ground inv warps p s.minZ)) =
      .ok (flPt (surfPoint (ground inv warps p) s.surf (maxRaySteps s.shape.1 s.shape.2) res s.minZ s.maxZ)) := by
  have hst : rayStepsFl (maxRaySteps s.shape.1 s.shape.2) res (flPt (ground inv warps p s.maxZ)) (flPt (ground inv warps p s.minZ)) =
      some (raySteps (maxRaySteps s.shape.1 s.shape.2) res (ground inv warps p s.maxZ) (ground inv warps p s.minZ)) := rfl
  unfold rayPoint surfPoint
  rw [hst]
  simp only
  have hn := (raySteps_lt_iff (maxRaySteps_ge s.shape.1 s.shape.2) _ _ _).2 hs
  generalize raySteps (maxRaySteps s.shape.1 s.shape.2) res (ground inv warps p s.maxZ) (ground inv warps p s.minZ) = n at hn
  rw [array_eq inv warps p]
  · simp only [hi, Bool.true_eq_false, if_false]
    rw [if_neg (by omega)]
    have hmap : (linspace s.maxZ s.minZ n).map (fun z => flPt (ground inv warps p z)) =
        ((linspace s.maxZ s.minZ n).map (ground inv warps p)).map flPt := by rw [List.map_map]; rfl
    rw [hmap, find_flPt, getLastD_flPt]
    cases ((linspace s.maxZ s.minZ n).map (ground inv warps p)).find? (hits s.surf) <;> rfl
  · intro z hz
    simp only [linspace, List.mem_map, List.mem_range] at hz
    obtain ⟨k, hk, rfl⟩ := hz
    have := Frame.sampleZ_mem s.minZ s.maxZ hm n k hk
    exact h _ this.1 this.2

theorem raysLoop_eq (inv : ℝ × ℝ → ℝ → ℝ × ℝ) (warps : Option Warps) (s : Surface) (hm : s.minZ ≤ s.maxZ)
    (hsh : s.shape.1 < 32767 ∧ s.shape.2 < 32767) (hi : s.interpIsEnum = true) (res : ℝ × ℝ) (l : List (ℝ × ℝ))
    (h : ∀ p ∈ l, ∀ z, s.minZ ≤ z → z ≤ s.maxZ → FiniteAt inv warps p z)
    (hs : ∀ p ∈ l, Short res (ground inv warps p s.maxZ) (ground inv warps p s.minZ)) :
    raysLoop (pixelToWorldZ inv (warps.map Prod.fst)) s res l (l.map fun p => flPt (ground inv warps p s.maxZ))
      (l.map fun p => flPt (ground inv warps p s.minZ)) =
      .ok (l.map fun p => flPt (surfPoint (ground inv warps p) s.surf (maxRaySteps s.shape.1 s.shape.2) res s.minZ s.maxZ)) := by
  induction l with
  | nil => rfl
  | cons p l ih =>
    simp only [List.map_cons, raysLoop]
    rw [rayPoint_eq inv warps s hm hsh hi res p (h p (by simp)) (hs p (by simp)),
      ih (fun q hq => h q (by simp [hq])) fun q hq => hs q (by simp [hq])]

theorem surfBoundary_eq (inv : ℝ × ℝ → ℝ → ℝ × ℝ) (warps : Option Warps) (s : Surface) (hm : s.minZ ≤ s.maxZ)
    (hdt : s.dtypeOk = true) (hsh : s.shape.1 < 32767 ∧ s.shape.2 < 32767)
    (hi : s.interpIsEnum = true) (res : ℝ × ℝ) (l : List (ℝ × ℝ))
    (h : ∀ p ∈ l, ∀ z, s.minZ ≤ z → z ≤ s.maxZ → FiniteAt inv warps p z)
    (hs : ∀ p ∈ l, Short res (ground inv warps p s.maxZ) (ground inv warps p s.minZ)) :
    surfBoundary (pixelToWorldZ inv (warps.map Prod.fst)) l s res =
      .ok (l.map fun p => flPt (surfPoint (ground inv warps p) s.surf (maxRaySteps s.shape.1 s.shape.2) res s.minZ s.maxZ)) := by
  unfold surfBoundary
  rw [if_neg (by simp [hdt]), if_neg (by omega), scalar_eq inv warps l s.minZ fun p hp => h p hp _ le_rfl hm,
    scalar_eq inv warps l s.maxZ fun p hp => h p hp _ hm le_rfl]
  simp only [ok_bind]
  exact raysLoop_eq inv warps s hm hsh hi res l h hs

/-! ## Theorems -/

/-- C73: `world_to_pixel` of `pixel_to_world_z` gives the pixels back, for any pixels and heights at which GDAL's inverse and the transforms of
the CRS are right; elsewhere they need not be. -/
theorem C73_inverse_local (inv : ℝ × ℝ → ℝ → ℝ × ℝ) (r : Rpc ℝ) (warps : Option Warps) (l : List (ℝ × ℝ)) (z : ZArg ℝ) (zs : List ℝ)
    (hz : Heights l.length z (zs.map Fl.val)) (h : ∀ q ∈ l.zip zs, RightAt inv r warps q.1 q.2) :
    ∃ Xs : List (ℝ × ℝ × ℝ), pixelToWorldZ inv (warps.map Prod.fst) (pix l) z = .ok (Xs.map flPt) ∧ Xs.map (fun X => X.2.2) = zs ∧
      worldToPixel (warps.map Prod.snd) r (Xs.map flPt) = pix l := by
  have hpl : (pix l).length = l.length := by simp [pix]
  obtain ⟨out, ho, hlen, hpt⟩ := C73_pointwise inv (warps.map Prod.fst) (pix l) z (zs.map Fl.val) (by rw [hpl]; exact hz)
  have hzl : zs.length = l.length := by
    have := (broadcastZ_heights (pix l) z (zs.map Fl.val) (by rw [hpl]; exact hz)).2
    rw [List.length_map, hpl] at this
    exact this
  have he : out = ((l.zip zs).map fun q => ground inv warps q.1 q.2).map flPt := by
    apply List.ext_getElem?
    intro k
    rw [List.map_map, List.getElem?_map]
    by_cases hk : k < l.length
    · have hk' : k < (l.zip zs).length := by rw [List.length_zip]; omega
      have h1 : (pix l)[k]? = some (.val l[k].1, .val l[k].2) := by simp [pix, hk]
      have h2 : (zs.map Fl.val)[k]? = some (.val (zs[k]'(by omega))) := by simp [hzl, hk]
      rw [(hpt k _ _ _ h1 h2).1 _ _ _ rfl rfl rfl, List.getElem?_eq_getElem hk']
      have := (h _ (List.getElem_mem hk')).point.1
      rw [List.getElem_zip] at this
      rw [this, List.getElem_zip]
      rfl
    · rw [List.getElem?_eq_none (by omega), List.getElem?_eq_none (by rw [List.length_zip]; omega)]
      rfl
  refine ⟨(l.zip zs).map fun q => ground inv warps q.1 q.2, he ▸ ho, ?_, ?_⟩
  · rw [List.map_map]
    conv_rhs => rw [← List.map_snd_zip (l₁ := l) (l₂ := zs) (by omega)]
    exact List.map_congr_left fun q hq => (h q hq).point.2.1
  · rw [C29_pointwise, List.map_map, List.map_map]
    conv_rhs => rw [← List.map_fst_zip (l₁ := l) (l₂ := zs) (by omega)]
    rw [pix, List.map_map]
    exact List.map_congr_left fun q hq => (h q hq).point.2.2.2

/-- C108: at an elevation, the boundary of an RPC camera is one world point for each pixel of the image boundary: the ground of the pixel at
the elevation; and `world_to_pixel` of the boundary is the image boundary. -/
theorem C108_elevation (inv : ℝ × ℝ → ℝ → ℝ × ℝ) (warps : Option Warps) (r : Rpc ℝ) (im : ℕ × ℕ) (num : Option ℤ)
    (l : List (ℝ × ℝ)) (hl : pixelBoundary im num = .ok l) (z : ℝ) (h : ∀ p ∈ l, RightAt inv r warps p z) :
    ∃ Xs : List (ℝ × ℝ × ℝ), rpcBoundary inv warps im (.scalar z) num = .ok (Xs.map flPt) ∧
      List.Forall₂ (fun X p => X.2.2 = z ∧ Ground inv warps p z X) Xs l ∧
      worldToPixel (warps.map Prod.snd) r (Xs.map flPt) = pix l := by
  refine ⟨l.map fun p => ground inv warps p z, ?_, ?_, ?_⟩
  · unfold rpcBoundary baseBoundary
    rw [hl]
    simp only [ok_bind]
    rw [scalar_eq inv warps l z fun p hp => (h p hp).point.1, List.map_map]
    rfl
  · rw [List.forall₂_map_left_iff, List.forall₂_same]
    exact fun p hp => ⟨(h p hp).point.2.1, (h p hp).point.2.2.1⟩
  · rw [C29_pointwise, List.map_map, List.map_map]
    exact List.map_congr_left fun p hp => (h p hp).point.2.2.2

/-- C108: on a surface, the boundary is one world point for each pixel of the image boundary: ground of the pixel, at an elevation that is
between the extremes of the surface; and `world_to_pixel` of the boundary is the image boundary.  The surface has fewer than 32767 rows and
columns, and the ground of the pixels crosses at most 32765 of its pixels between its extremes (`C108_long_fails`). -/
theorem C108_surface (inv : ℝ × ℝ → ℝ → ℝ × ℝ) (warps : Option Warps) (r : Rpc ℝ) (im : ℕ × ℕ) (num : Option ℤ)
    (l : List (ℝ × ℝ)) (hl : pixelBoundary im num = .ok l) (s : Surface) (res : ℝ × ℝ) (hres : s.res = some res)
    (hdt : s.dtypeOk = true) (hsh : s.shape.1 < 32767 ∧ s.shape.2 < 32767) (hi : s.interpIsEnum = true) (hm : s.minZ ≤ s.maxZ)
    (h : ∀ p ∈ l, ∀ z, s.minZ ≤ z → z ≤ s.maxZ → RightAt inv r warps p z)
    (hs : ∀ p ∈ l, ∀ A B, Ground inv warps p s.maxZ A → Ground inv warps p s.minZ B → Short res A B) :
    ∃ Xs : List (ℝ × ℝ × ℝ), rpcBoundary inv warps im (.surface s) num = .ok (Xs.map flPt) ∧
      List.Forall₂ (fun X p => s.minZ ≤ X.2.2 ∧ X.2.2 ≤ s.maxZ ∧ Ground inv warps p X.2.2 X) Xs l ∧
      worldToPixel (warps.map Prod.snd) r (Xs.map flPt) = pix l := by
  have key : ∀ p ∈ l, ∃ z, s.minZ ≤ z ∧ z ≤ s.maxZ ∧
      surfPoint (ground inv warps p) s.surf (maxRaySteps s.shape.1 s.shape.2) res s.minZ s.maxZ = ground inv warps p z := by
    intro p _
    obtain ⟨k, -, hp, h1, h2, -⟩ := Frame.C41_first (ground inv warps p) s.surf (maxRaySteps s.shape.1 s.shape.2)
      (by have := Frame.maxRaySteps_ge s.shape.1 s.shape.2; omega) res s.minZ s.maxZ hm
    exact ⟨_, h1, h2, hp⟩
  refine ⟨l.map fun p => surfPoint (ground inv warps p) s.surf (maxRaySteps s.shape.1 s.shape.2) res s.minZ s.maxZ, ?_, ?_, ?_⟩
  · unfold rpcBoundary baseBoundary
    rw [hl]
    simp only [ok_bind, hres]
    rw [surfBoundary_eq inv warps s hm hdt hsh hi res l (fun p hp z h1 h2 => (h p hp z h1 h2).point.1)
      fun p hp => hs p hp _ _ (h p hp _ hm le_rfl).point.2.2.1 (h p hp _ le_rfl hm).point.2.2.1, List.map_map]
    rfl
  · rw [List.forall₂_map_left_iff, List.forall₂_same]
    intro p hp
    obtain ⟨z, h1, h2, he⟩ := key p hp
    have := (h p hp z h1 h2).point
    rw [he, this.2.1]
    exact ⟨h1, h2, this.2.2.1⟩
  · rw [C29_pointwise, List.map_map, List.map_map]
    refine List.map_congr_left fun p hp => ?_
    obtain ⟨z, h1, h2, he⟩ := key p hp
    simp only [Function.comp, he]
    exact (h p hp z h1 h2).point.2.2.2

/-- Points of a ray that move unevenly with the elevation: no more than `ρ` times as fast as on average. -/
def Uneven (P : ℝ → ℝ) (minZ maxZ ρ : ℝ) : Prop :=
  ∀ z z', minZ ≤ z → z ≤ maxZ → minZ ≤ z' → z' ≤ maxZ → |P z - P z'| * (maxZ - minZ) ≤ ρ * |P maxZ - P minZ| * |z - z'|

theorem surf_accuracy (P : ℝ → ℝ × ℝ × ℝ) (hPz : ∀ z, (P z).2.2 = z) (surf : ℝ → ℝ → Fl ℝ) (g : ℝ → ℝ) (cap : ℕ) (res : ℝ × ℝ)
    (hres : res.1 ≠ 0 ∧ res.2 ≠ 0) (minZ maxZ ρ : ℝ) (hz : minZ ≤ maxZ) (hρ : 0 ≤ ρ) (hx : Uneven (fun z => (P z).1) minZ maxZ ρ)
    (hy : Uneven (fun z => (P z).2.1) minZ maxZ ρ) (hcap : raySteps cap res (P maxZ) (P minZ) < cap)
    (hg : ∀ z, minZ ≤ z → z ≤ maxZ → surf (P z).1 (P z).2.1 = .val (g z)) (hc : ContinuousOn g (Set.Icc minZ maxZ))
    (hlo : minZ ≤ g minZ) (hhi : g maxZ ≤ maxZ) :
    ∃ z, minZ ≤ z ∧ z ≤ maxZ ∧ surf (P z).1 (P z).2.1 = .val z ∧
      |(surfPoint P surf cap res minZ maxZ).1 - (P z).1| ≤ ρ * |res.1| ∧
      |(surfPoint P surf cap res minZ maxZ).2.1 - (P z).2.1| ≤ ρ * |res.2| := by
  have hcap0 : 0 < cap := by omega
  obtain ⟨k, hk, hpt, hk1, hk2, hprev, hhit⟩ := Frame.C41_first P surf cap hcap0 res minZ maxZ hz
  obtain ⟨n, hn⟩ : ∃ n, n = raySteps cap res (P maxZ) (P minZ) := ⟨_, rfl⟩
  rw [← hn] at hk hpt hk1 hk2 hprev hhit hcap
  rw [hpt]
  have hn1 : 1 ≤ n := by omega
  -- the number of samples
  have hsteps : |(P minZ).1 - (P maxZ).1| ≤ ((n : ℝ) - 1) * |res.1| ∧ |(P minZ).2.1 - (P maxZ).2.1| ≤ ((n : ℝ) - 1) * |res.2| := by
    have hmax : max |((P minZ).1 - (P maxZ).1) / res.1| |((P minZ).2.1 - (P maxZ).2.1) / res.2| ≤ (n : ℝ) - 1 := by
      unfold raySteps at hn
      have h1 : ⌈max |((P minZ).1 - (P maxZ).1) / res.1| |((P minZ).2.1 - (P maxZ).2.1) / res.2|⌉ ≤ (n : ℤ) - 1 := by omega
      have h2 := Int.ceil_le.1 h1
      push_cast at h2
      exact h2
    constructor
    · have h1 := (le_max_left _ _).trans hmax
      rwa [abs_div, div_le_iff₀ (abs_pos.2 hres.1)] at h1
    · have h1 := (le_max_right _ _).trans hmax
      rwa [abs_div, div_le_iff₀ (abs_pos.2 hres.2)] at h1
  have below : ∀ z, minZ ≤ z → z ≤ maxZ → (AtOrBelow surf (P z) ↔ z ≤ g z) := by
    intro z h1 h2
    unfold AtOrBelow
    rw [hg z h1 h2, hPz]
    simp
  have cross : ∀ a b, minZ ≤ a → a ≤ b → b ≤ maxZ → a ≤ g a → g b ≤ b → ∃ z, a ≤ z ∧ z ≤ b ∧ g z = z := by
    intro a b ha hab hb hga hgb
    have hcont : ContinuousOn (fun z => g z - z) (Set.Icc a b) :=
      (hc.mono (Set.Icc_subset_Icc ha hb)).sub continuousOn_id
    have := intermediate_value_Icc' hab hcont
    obtain ⟨z, hz, hz'⟩ := this ⟨(by simp only; linarith : (fun z => g z - z) b ≤ 0), (by simp only; linarith : 0 ≤ (fun z => g z - z) a)⟩
    exact ⟨z, hz.1, hz.2, by simp only at hz'; linarith⟩
  -- an intersection no more than a step away
  have near : ∃ z, minZ ≤ z ∧ z ≤ maxZ ∧ g z = z ∧ |sampleZ minZ maxZ n k - z| * ((n : ℝ) - 1) ≤ maxZ - minZ := by
    by_cases hk0 : k = 0
    · subst hk0
      have h0 : sampleZ minZ maxZ n 0 = maxZ := by simp [sampleZ]
      rw [h0] at hhit ⊢
      by_cases hh : AtOrBelow surf (P maxZ)
      · have h1 := (below maxZ hz le_rfl).1 hh
        exact ⟨maxZ, hz, le_rfl, le_antisymm hhi h1, by simp [hz]⟩
      · have hn1 : n = 1 := by
          rcases hhit with h | h
          · exact absurd h hh
          · omega
        obtain ⟨z, hz1, hz2, hz3⟩ := cross minZ maxZ le_rfl hz le_rfl hlo hhi
        exact ⟨z, hz1, hz2, hz3, by rw [hn1]; simp [hz]⟩
    · have hk' : k - 1 + 1 = k := by omega
      have hn2 : 1 < n := by omega
      have hd : (0 : ℝ) < (n : ℝ) - 1 := by
        have : (1 : ℝ) < n := by exact_mod_cast hn2
        linarith
      obtain ⟨hp1, hp2⟩ := Frame.sampleZ_mem minZ maxZ hz n (k - 1) (by omega)
      have hstep : sampleZ minZ maxZ n k - sampleZ minZ maxZ n (k - 1) = (minZ - maxZ) / ((n : ℝ) - 1) := by
        rw [← hk']
        unfold sampleZ
        push_cast
        ring
      have hle : sampleZ minZ maxZ n k ≤ sampleZ minZ maxZ n (k - 1) := by
        have : (minZ - maxZ) / ((n : ℝ) - 1) ≤ 0 := div_nonpos_of_nonpos_of_nonneg (by linarith) hd.le
        linarith
      have hlow : sampleZ minZ maxZ n k ≤ g (sampleZ minZ maxZ n k) := by
        rcases hhit with h | h
        · exact (below _ hk1 hk2).1 h
        · have : sampleZ minZ maxZ n k = minZ := by
            rw [h]
            unfold sampleZ
            rw [Nat.cast_sub (by omega), Nat.cast_one, mul_div_cancel₀ _ hd.ne']
            ring
          rw [this]; exact hlo
      have hup : g (sampleZ minZ maxZ n (k - 1)) ≤ sampleZ minZ maxZ n (k - 1) := by
        have := hprev (k - 1) (by omega)
        rw [below _ hp1 hp2] at this
        linarith
      obtain ⟨z, hz1, hz2, hz3⟩ := cross _ _ hk1 hle hp2 hlow hup
      refine ⟨z, hk1.trans hz1, hz2.trans hp2, hz3, ?_⟩
      rw [abs_of_nonpos (by linarith), ← le_div_iff₀ hd]
      have : -((minZ - maxZ) / ((n : ℝ) - 1)) = (maxZ - minZ) / ((n : ℝ) - 1) := by ring
      linarith
  obtain ⟨z, hz1, hz2, hz3, hz4⟩ := near
  have close : ∀ (Q : ℝ → ℝ) (a : ℝ), Uneven Q minZ maxZ ρ → |Q minZ - Q maxZ| ≤ ((n : ℝ) - 1) * |a| →
      |Q (sampleZ minZ maxZ n k) - Q z| ≤ ρ * |a| := by
    intro Q a hQ ha
    rcases hz.eq_or_lt with he | hlt
    · have : sampleZ minZ maxZ n k = z := by linarith
      rw [this, sub_self, abs_zero]
      exact mul_nonneg hρ (abs_nonneg _)
    · have hD : 0 < maxZ - minZ := by linarith
      have h1 := hQ _ _ hk1 hk2 hz1 hz2
      rw [abs_sub_comm (Q maxZ)] at h1
      have h2 : ρ * |Q minZ - Q maxZ| * |sampleZ minZ maxZ n k - z| ≤ ρ * |a| * (maxZ - minZ) := by
        calc ρ * |Q minZ - Q maxZ| * |sampleZ minZ maxZ n k - z|
            ≤ ρ * (((n : ℝ) - 1) * |a|) * |sampleZ minZ maxZ n k - z| :=
              mul_le_mul_of_nonneg_right (mul_le_mul_of_nonneg_left ha hρ) (abs_nonneg _)
          _ = ρ * |a| * (|sampleZ minZ maxZ n k - z| * ((n : ℝ) - 1)) := by ring
          _ ≤ ρ * |a| * (maxZ - minZ) := mul_le_mul_of_nonneg_left hz4 (mul_nonneg hρ (abs_nonneg _))
      exact le_of_mul_le_mul_right (h1.trans h2) hD
  exact ⟨z, hz1, hz2, by rw [hg z hz1 hz2, hz3], close _ _ hx hsteps.1, close _ _ hy hsteps.2⟩

/-- C108, the part that holds: on a continuous surface, each point of the boundary is no farther from where the ground of its pixel meets the
surface than `ρ` pixels of the surface, in x and in y, when the ground moves with the elevation no more than `ρ` times as fast as on average
(and it crosses at most 32765 pixels of the surface).  Missing: other RPC models (`C108_accuracy_fails`). -/
theorem C108_accuracy_partial (inv : ℝ × ℝ → ℝ → ℝ × ℝ) (warps : Option Warps) (r : Rpc ℝ) (im : ℕ × ℕ) (num : Option ℤ)
    (l : List (ℝ × ℝ)) (hl : pixelBoundary im num = .ok l) (s : Surface) (res : ℝ × ℝ) (hres : s.res = some res)
    (hr0 : res.1 ≠ 0 ∧ res.2 ≠ 0) (hdt : s.dtypeOk = true) (hsh : s.shape.1 < 32767 ∧ s.shape.2 < 32767)
    (hi : s.interpIsEnum = true) (hm : s.minZ ≤ s.maxZ)
    (h : ∀ p ∈ l, ∀ z, s.minZ ≤ z → z ≤ s.maxZ → RightAt inv r warps p z) (ρ : ℝ) (hρ : 0 ≤ ρ)
    (G : ℝ × ℝ → ℝ → ℝ × ℝ × ℝ) (hG : ∀ p ∈ l, ∀ z, s.minZ ≤ z → z ≤ s.maxZ → Ground inv warps p z (G p z))
    (hu : ∀ p ∈ l, Uneven (fun z => (G p z).1) s.minZ s.maxZ ρ ∧ Uneven (fun z => (G p z).2.1) s.minZ s.maxZ ρ)
    (hs : ∀ p ∈ l, Short res (G p s.maxZ) (G p s.minZ))
    (hg : ∀ p ∈ l, ∃ g : ℝ → ℝ, ContinuousOn g (Set.Icc s.minZ s.maxZ) ∧ ∀ z, s.minZ ≤ z → z ≤ s.maxZ →
      s.surf (G p z).1 (G p z).2.1 = .val (g z) ∧ s.minZ ≤ g z ∧ g z ≤ s.maxZ) :
    ∃ Xs : List (ℝ × ℝ × ℝ), rpcBoundary inv warps im (.surface s) num = .ok (Xs.map flPt) ∧
      List.Forall₂ (fun X p => ∃ z, s.surf (G p z).1 (G p z).2.1 = .val z ∧
        |X.1 - (G p z).1| ≤ ρ * |res.1| ∧ |X.2.1 - (G p z).2.1| ≤ ρ * |res.2|) Xs l := by
  have hGg : ∀ p ∈ l, ∀ z, s.minZ ≤ z → z ≤ s.maxZ → G p z = ground inv warps p z := by
    intro p hp z h1 h2
    have a := hG p hp z h1 h2
    have b := (h p hp z h1 h2).point.2.2.1
    unfold Ground at a b
    cases warps with
    | none => exact a.trans b.symm
    | some w =>
      simp only at a b
      rw [a] at b
      simp only [Prod.mk.injEq, Fl.val.injEq] at b
      exact Prod.ext b.1 (Prod.ext b.2.1 b.2.2)
  refine ⟨l.map fun p => surfPoint (ground inv warps p) s.surf (maxRaySteps s.shape.1 s.shape.2) res s.minZ s.maxZ, ?_, ?_⟩
  · unfold rpcBoundary baseBoundary
    rw [hl]
    simp only [ok_bind, hres]
    rw [surfBoundary_eq inv warps s hm hdt hsh hi res l (fun p hp z h1 h2 => (h p hp z h1 h2).point.1)
      fun p hp => by rw [← hGg p hp _ hm le_rfl, ← hGg p hp _ le_rfl hm]; exact hs p hp, List.map_map]
    rfl
  · rw [List.forall₂_map_left_iff, List.forall₂_same]
    intro p hp
    have hGg := hGg p hp
    -- beyond the extremes of the surface the ground is of no matter
    let P : ℝ → ℝ × ℝ × ℝ := fun z => ((ground inv warps p z).1, (ground inv warps p z).2.1, z)
    have hP : ∀ z, s.minZ ≤ z → z ≤ s.maxZ → P z = ground inv warps p z := by
      intro z h1 h2
      have := (h p hp z h1 h2).point.2.1
      simp only [P]
      exact Prod.ext rfl (Prod.ext rfl this.symm)
    have hsp : surfPoint (ground inv warps p) s.surf (maxRaySteps s.shape.1 s.shape.2) res s.minZ s.maxZ =
        surfPoint P s.surf (maxRaySteps s.shape.1 s.shape.2) res s.minZ s.maxZ := by
      have hr : ∀ n, (linspace s.maxZ s.minZ n).map (ground inv warps p) = (linspace s.maxZ s.minZ n).map P := by
        intro n
        refine List.map_congr_left fun z hz => ?_
        simp only [linspace, List.mem_map, List.mem_range] at hz
        obtain ⟨k, hk, rfl⟩ := hz
        have := Frame.sampleZ_mem s.minZ s.maxZ hm n k hk
        exact (hP _ this.1 this.2).symm
      unfold surfPoint
      simp only [← hP s.minZ le_rfl hm, ← hP s.maxZ hm le_rfl, hr]
    obtain ⟨g, hgc, hgz⟩ := hg p hp
    have hQ : ∀ z, s.minZ ≤ z → z ≤ s.maxZ → P z = G p z := fun z h1 h2 => (hP z h1 h2).trans (hGg z h1 h2).symm
    have tr : ∀ (A B : ℝ → ℝ), (∀ z, s.minZ ≤ z → z ≤ s.maxZ → A z = B z) → Uneven A s.minZ s.maxZ ρ → Uneven B s.minZ s.maxZ ρ := by
      intro A B hAB hA z z' h1 h2 h3 h4
      have := hA z z' h1 h2 h3 h4
      rwa [hAB z h1 h2, hAB z' h3 h4, hAB _ hm le_rfl, hAB _ le_rfl hm] at this
    obtain ⟨z, hz1, hz2, hz3, hz4, hz5⟩ := surf_accuracy P (fun _ => rfl) s.surf g (maxRaySteps s.shape.1 s.shape.2) res hr0
      s.minZ s.maxZ ρ hm hρ (tr _ _ (fun z h1 h2 => by rw [hQ z h1 h2]) (hu p hp).1)
      (tr _ _ (fun z h1 h2 => by rw [hQ z h1 h2]) (hu p hp).2)
      (by
        rw [hQ _ hm le_rfl, hQ _ le_rfl hm]
        exact ((raySteps_lt_iff (maxRaySteps_ge _ _) _ _ _).2 (hs p hp)).trans_le (maxRaySteps_ge _ _))
      (fun z h1 h2 => by rw [hQ z h1 h2]; exact (hgz z h1 h2).1) hgc (hgz _ le_rfl hm).2.1 (hgz _ hm le_rfl).2.2
    refine ⟨z, ?_, ?_, ?_⟩
    · rw [← hQ z hz1 hz2]; exact hz3
    · rw [hsp, ← hQ z hz1 hz2]; exact hz4
    · rw [hsp, ← hQ z hz1 hz2]; exact hz5

/-- C108: `nan` coordinates at an extreme of a surface, for any pixel of the image boundary, end in `ValueError`, or in `cv2.error` if an
earlier pixel does (`C108_long_fails`). -/
theorem C108_nan (inv : ℝ × ℝ → ℝ → ℝ × ℝ) (warps : Option Warps) (im : ℕ × ℕ) (num : Option ℤ)
    (l : List (ℝ × ℝ)) (hl : pixelBoundary im num = .ok l) (s : Surface) (hi : s.interpIsEnum = true) (p : ℝ × ℝ) (hp : p ∈ l) (z : ℝ)
    (hz : z = s.minZ ∨ z = s.maxZ) (hn : (worldPoint inv (warps.map Prod.fst) p.1 p.2 z).1 = .nan ∨
      (worldPoint inv (warps.map Prod.fst) p.1 p.2 z).2.1 = .nan) :
    rpcBoundary inv warps im (.surface s) num = .error .valueError ∨
      rpcBoundary inv warps im (.surface s) num = .error .cvError := by
  unfold rpcBoundary baseBoundary
  rw [hl]
  simp only [ok_bind]
  cases s.res with
  | none => exact .inl rfl
  | some res =>
    show surfBoundary _ l s res = _ ∨ surfBoundary _ l s res = _
    generalize warps.map Prod.fst = w at hn ⊢
    unfold surfBoundary
    split_ifs
    · exact .inl rfl
    · exact .inl rfl
    · rw [scalar_raw, scalar_raw]
      simp only [ok_bind]
      -- a ray gives a point, a `ValueError` or a `cv2.error`
      have ray : ∀ (q : ℝ × ℝ) (a b : FlPt), (∃ X, rayPoint (pixelToWorldZ inv w) s res q a b = .ok X) ∨
          rayPoint (pixelToWorldZ inv w) s res q a b = .error .valueError ∨
          rayPoint (pixelToWorldZ inv w) s res q a b = .error .cvError := by
        intro q a b
        unfold rayPoint
        cases rayStepsFl (maxRaySteps s.shape.1 s.shape.2) res a b with
        | none => exact .inr (.inl rfl)
        | some n =>
          simp only [array_raw, hi, Bool.true_eq_false, if_false]
          split_ifs
          · exact .inr (.inr rfl)
          cases ((linspace s.maxZ s.minZ n).map fun z => worldPoint inv w q.1 q.2 z).find? (hitsFl s.surf) <;> exact .inl ⟨_, rfl⟩
      have bad : rayPoint (pixelToWorldZ inv w) s res p (worldPoint inv w p.1 p.2 s.maxZ) (worldPoint inv w p.1 p.2 s.minZ) =
          .error .valueError := by
        have : rayStepsFl (maxRaySteps s.shape.1 s.shape.2) res (worldPoint inv w p.1 p.2 s.maxZ) (worldPoint inv w p.1 p.2 s.minZ) =
            none := by
          unfold rayStepsFl
          rcases hz with rfl | rfl <;> split <;> simp_all
        unfold rayPoint
        rw [this]
      have loop : ∀ l : List (ℝ × ℝ), p ∈ l → raysLoop (pixelToWorldZ inv w) s res l (l.map fun p => worldPoint inv w p.1 p.2 s.maxZ)
          (l.map fun p => worldPoint inv w p.1 p.2 s.minZ) = .error .valueError ∨
          raysLoop (pixelToWorldZ inv w) s res l (l.map fun p => worldPoint inv w p.1 p.2 s.maxZ)
          (l.map fun p => worldPoint inv w p.1 p.2 s.minZ) = .error .cvError := by
        intro l
        induction l with
        | nil => intro h; cases h
        | cons q l ih =>
          intro h
          simp only [List.map_cons, raysLoop]
          rcases List.mem_cons.1 h with rfl | h
          · rw [bad]
            exact .inl rfl
          · rcases ray q (worldPoint inv w q.1 q.2 s.maxZ) (worldPoint inv w q.1 q.2 s.minZ) with ⟨X, hX⟩ | hX | hX
            · rcases ih h with h | h
              · rw [hX, h]; exact .inl rfl
              · rw [hX, h]; exact .inr rfl
            · rw [hX]; exact .inl rfl
            · rw [hX]; exact .inr rfl
      exact loop l hp

/-- C108: no point of a boundary on a surface has a `nan` x or y coordinate, also when some of the ground of the pixels, between the extremes of
the surface, cannot be transformed to the camera's CRS. -/
theorem C108_finite (inv : ℝ × ℝ → ℝ → ℝ × ℝ) (warps : Option Warps) (im : ℕ × ℕ) (num : Option ℤ) (s : Surface) (Xs : List FlPt)
    (h : rpcBoundary inv warps im (.surface s) num = .ok Xs) : ∀ X ∈ Xs, X.1 ≠ .nan ∧ X.2.1 ≠ .nan := by
  unfold rpcBoundary baseBoundary at h
  generalize warps.map Prod.fst = w at h
  cases hl : pixelBoundary (K := ℝ) im num with
  | error e => rw [hl] at h; cases h
  | ok l =>
  rw [hl] at h
  simp only [ok_bind] at h
  cases hr : s.res with
  | none => rw [hr] at h; cases h
  | some res =>
  rw [hr] at h
  replace h : surfBoundary (pixelToWorldZ inv w) l s res = .ok Xs := h
  unfold surfBoundary at h
  split_ifs at h
  rw [scalar_raw, scalar_raw] at h
  simp only [ok_bind] at h
  clear hl
  have ray : ∀ (q : ℝ × ℝ) (X : FlPt), rayPoint (pixelToWorldZ inv w) s res q (worldPoint inv w q.1 q.2 s.maxZ)
      (worldPoint inv w q.1 q.2 s.minZ) = .ok X → X.1 ≠ .nan ∧ X.2.1 ≠ .nan := by
    intro q X hX
    unfold rayPoint at hX
    cases hn : rayStepsFl (maxRaySteps s.shape.1 s.shape.2) res (worldPoint inv w q.1 q.2 s.maxZ) (worldPoint inv w q.1 q.2 s.minZ) with
    | none => rw [hn] at hX; cases hX
    | some n =>
      simp only [hn, array_raw] at hX
      split_ifs at hX
      cases hf : ((linspace s.maxZ s.minZ n).map fun z => worldPoint inv w q.1 q.2 z).find? (hitsFl s.surf) with
      | some Y =>
        rw [hf] at hX
        cases hX
        have := List.find?_some hf
        unfold hitsFl at this
        split at this
        · simp
        · cases this
      | none =>
        rw [hf] at hX
        cases hX
        unfold rayStepsFl at hn
        split at hn
        · rename_i x y z x' y' z' h1 h2
          simp only [Option.some.injEq] at hn
          have hpos : 0 < n := by
            rw [← hn]
            exact Frame.raySteps_pos (by unfold maxRaySteps; omega) _ _ _
          obtain ⟨m, rfl⟩ : ∃ m, n = m + 1 := ⟨n - 1, by omega⟩
          have hlast : ((linspace s.maxZ s.minZ (m + 1)).map fun z => worldPoint inv w q.1 q.2 z).getLastD (.val 0, .val 0, .val 0) =
              worldPoint inv w q.1 q.2 (s.maxZ + (m : ℝ) * ((s.minZ - s.maxZ) / (((m + 1 : ℕ) : ℝ) - 1))) := by
            simp [linspace, List.range_succ]
          rw [hlast]
          rcases Nat.eq_zero_or_pos m with rfl | hm
          · simp only [Nat.cast_zero, zero_mul, add_zero, h1]
            exact ⟨nofun, nofun⟩
          · have : (m : ℝ) ≠ 0 := by positivity
            rw [show s.maxZ + (m : ℝ) * ((s.minZ - s.maxZ) / (((m + 1 : ℕ) : ℝ) - 1)) = s.minZ by
              push_cast; rw [add_sub_cancel_right, mul_div_cancel₀ _ this]; ring, h2]
            exact ⟨nofun, nofun⟩
        · cases hn
  have loop : ∀ (l : List (ℝ × ℝ)) (Xs : List FlPt), raysLoop (pixelToWorldZ inv w) s res l (l.map fun p => worldPoint inv w p.1 p.2 s.maxZ)
      (l.map fun p => worldPoint inv w p.1 p.2 s.minZ) = .ok Xs → ∀ X ∈ Xs, X.1 ≠ .nan ∧ X.2.1 ≠ .nan := by
    intro l
    induction l with
    | nil => intro Xs h X hX; cases h; cases hX
    | cons q l ih =>
      intro Xs h X hX
      simp only [List.map_cons, raysLoop] at h
      cases hq : rayPoint (pixelToWorldZ inv w) s res q (worldPoint inv w q.1 q.2 s.maxZ) (worldPoint inv w q.1 q.2 s.minZ) with
      | error e => rw [hq] at h; cases h
      | ok Y =>
        rw [hq] at h
        simp only at h
        cases hls : raysLoop (pixelToWorldZ inv w) s res l (l.map fun p => worldPoint inv w p.1 p.2 s.maxZ)
            (l.map fun p => worldPoint inv w p.1 p.2 s.minZ) with
        | error e => rw [hls] at h; cases h
        | ok Ys =>
          rw [hls] at h
          cases h
          rcases List.mem_cons.1 hX with rfl | hX
          · exact ray q _ hq
          · exact ih Ys hls X hX
  exact loop l Xs h

/-- C108: the boundary on a surface of a supported type and with at most 32767 rows and columns, as documented, ends in `cv2.error` exactly when
the surface has 32767 rows or columns, or the ground of a pixel moves by more than 32765 pixels of the surface, in x or in y, between its
extremes: the limit on the number of samples is never below what `cv2.remap` refuses. -/
theorem C108_long_fails (inv : ℝ × ℝ → ℝ → ℝ × ℝ) (warps : Option Warps) (r : Rpc ℝ) (im : ℕ × ℕ) (num : Option ℤ)
    (l : List (ℝ × ℝ)) (hl : pixelBoundary im num = .ok l) (s : Surface) (res : ℝ × ℝ) (hres : s.res = some res)
    (hdt : s.dtypeOk = true) (hsh : s.shape.1 ≤ 32767 ∧ s.shape.2 ≤ 32767) (hi : s.interpIsEnum = true) (hm : s.minZ ≤ s.maxZ)
    (h : ∀ p ∈ l, ∀ z, s.minZ ≤ z → z ≤ s.maxZ → RightAt inv r warps p z) :
    rpcBoundary inv warps im (.surface s) num = .error .cvError ↔
      ∃ p ∈ l, ∃ A B, Ground inv warps p s.maxZ A ∧ Ground inv warps p s.minZ B ∧ (s.shape.1 = 32767 ∨ s.shape.2 = 32767 ∨
        32765 < |(B.1 - A.1) / res.1| ∨ 32765 < |(B.2.1 - A.2.1) / res.2|) := by
  have huniq : ∀ p ∈ l, ∀ z, s.minZ ≤ z → z ≤ s.maxZ → ∀ X, Ground inv warps p z X → X = ground inv warps p z := by
    intro p hp z h1 h2 X a
    have b := (h p hp z h1 h2).point.2.2.1
    unfold Ground at a b
    cases warps with
    | none => exact a.trans b.symm
    | some w =>
      simp only at a b
      rw [a] at b
      simp only [Prod.mk.injEq, Fl.val.injEq] at b
      exact Prod.ext b.1 (Prod.ext b.2.1 b.2.2)
  have hnot : ∀ A B : ℝ × ℝ × ℝ, ¬ Short res A B ↔ 32765 < |(B.1 - A.1) / res.1| ∨ 32765 < |(B.2.1 - A.2.1) / res.2| := by
    intro A B
    rw [Short, not_and_or, not_le, not_le]
  simp only [← hnot]
  constructor
  · intro he
    by_contra hn
    push Not at hn
    by_cases hl0 : l = []
    · subst hl0
      unfold rpcBoundary baseBoundary at he
      rw [hl] at he
      simp only [ok_bind, hres] at he
      unfold surfBoundary at he
      rw [if_neg (by simp [hdt]), if_neg (by omega), scalar_raw, scalar_raw] at he
      simp only [ok_bind, List.map_nil, raysLoop] at he
      exact nomatch he
    · obtain ⟨p, hp⟩ := List.exists_mem_of_ne_nil l hl0
      have h0 := hn p hp _ _ (h p hp _ hm le_rfl).point.2.2.1 (h p hp _ le_rfl hm).point.2.2.1
      obtain ⟨Xs, hX, -⟩ := C108_surface inv warps r im num l hl s res hres hdt ⟨by omega, by omega⟩ hi hm h
        fun p hp A B hA hB => (hn p hp A B hA hB).2.2
      rw [hX] at he
      exact nomatch he
  · rintro ⟨p, hp, A, B, hA, hB, hbad⟩
    rw [huniq p hp _ hm le_rfl A hA, huniq p hp _ le_rfl hm B hB] at hbad
    unfold rpcBoundary baseBoundary
    rw [hl]
    simp only [ok_bind, hres]
    unfold surfBoundary
    rw [if_neg (by simp [hdt]), if_neg (by omega), scalar_eq inv warps l s.minZ fun p hp => (h p hp _ le_rfl hm).point.1,
      scalar_eq inv warps l s.maxZ fun p hp => (h p hp _ hm le_rfl).point.1]
    simp only [ok_bind]
    have ray : ∀ q, rayPoint (pixelToWorldZ inv (warps.map Prod.fst)) s res q (flPt (ground inv warps q s.maxZ))
        (flPt (ground inv warps q s.minZ)) = .error .cvError ∨ (¬ (s.shape.1 = 32767 ∨ s.shape.2 = 32767 ∨
          ¬ Short res (ground inv warps q s.maxZ) (ground inv warps q s.minZ)) ∧
        ∃ X, rayPoint (pixelToWorldZ inv (warps.map Prod.fst)) s res q (flPt (ground inv warps q s.maxZ))
          (flPt (ground inv warps q s.minZ)) = .ok X) := by
      intro q
      have hst : rayStepsFl (maxRaySteps s.shape.1 s.shape.2) res (flPt (ground inv warps q s.maxZ)) (flPt (ground inv warps q s.minZ)) =
          some (raySteps (maxRaySteps s.shape.1 s.shape.2) res (ground inv warps q s.maxZ) (ground inv warps q s.minZ)) := rfl
      have hlt := raySteps_lt_iff (maxRaySteps_ge s.shape.1 s.shape.2) res (ground inv warps q s.maxZ) (ground inv warps q s.minZ)
      unfold rayPoint
      rw [hst, ← hlt]
      generalize raySteps (maxRaySteps s.shape.1 s.shape.2) res (ground inv warps q s.maxZ) (ground inv warps q s.minZ) = n
      simp only [array_raw, hi, Bool.true_eq_false, if_false]
      split_ifs with hc
      · exact .inl rfl
      · refine .inr ⟨by omega, ?_⟩
        cases ((linspace s.maxZ s.minZ n).map fun z => worldPoint inv (warps.map Prod.fst) q.1 q.2 z).find? (hitsFl s.surf) <;>
          exact ⟨_, rfl⟩
    clear hl h huniq
    induction l with
    | nil => exact absurd hp List.not_mem_nil
    | cons q l ih =>
      simp only [List.map_cons, raysLoop]
      rcases ray q with hq | ⟨hg, X, hq⟩
      · rw [hq]
      · rw [hq]
        rcases List.mem_cons.1 hp with rfl | hp
        · exact absurd hbad hg
        · simp only [ih hp]

/-- C108: surfaces that OpenCV does not take, or without a transform, and what is neither a number nor a surface, end in `ValueError`. -/
theorem C108_refuses (inv : ℝ × ℝ → ℝ → ℝ × ℝ) (warps : Option Warps) (im : ℕ × ℕ) (num : Option ℤ)
    (l : List (ℝ × ℝ)) (hl : pixelBoundary im num = .ok l) (z : BoundaryZ)
    (hz : z = .other ∨ ∃ s, z = .surface s ∧ (s.res = none ∨ s.dtypeOk = false ∨ 32767 < s.shape.1 ∨ 32767 < s.shape.2)) :
    rpcBoundary inv warps im z num = .error .valueError := by
  unfold rpcBoundary baseBoundary
  rw [hl]
  simp only [ok_bind]
  rcases hz with rfl | ⟨s, rfl, hs⟩
  · rfl
  · simp only
    cases hr : s.res with
    | none => rfl
    | some res =>
      simp only [surfBoundary]
      rcases hs with h | h | h
      · rw [hr] at h; cases h
      · rw [if_pos h]
      · by_cases hd : s.dtypeOk = false
        · rw [if_pos hd]
        · rw [if_neg hd, if_pos h]

/-- C108: an interpolation type that is given as a string, as documented, ends in `AttributeError` for every surface that would otherwise be
used. -/
theorem C108_string_interp_fails (inv : ℝ × ℝ → ℝ → ℝ × ℝ) (warps : Option Warps) (r : Rpc ℝ) (im : ℕ × ℕ) (num : Option ℤ)
    (l : List (ℝ × ℝ)) (hl : pixelBoundary im num = .ok l) (hne : l ≠ []) (s : Surface) (hres : s.res.isSome = true)
    (hdt : s.dtypeOk = true) (hsh : s.shape.1 ≤ 32767 ∧ s.shape.2 ≤ 32767) (hi : s.interpIsEnum = false)
    (h : ∀ p ∈ l, ∀ z, s.minZ ≤ z → z ≤ s.maxZ → RightAt inv r warps p z) (hm : s.minZ ≤ s.maxZ) :
    rpcBoundary inv warps im (.surface s) num = .error .attributeError := by
  obtain ⟨res, hr⟩ := Option.isSome_iff_exists.1 hres
  unfold rpcBoundary baseBoundary
  rw [hl]
  simp only [ok_bind, hr]
  unfold surfBoundary
  rw [if_neg (by simp [hdt]), if_neg (by omega), scalar_eq inv warps l s.minZ fun p hp => (h p hp _ le_rfl hm).point.1,
    scalar_eq inv warps l s.maxZ fun p hp => (h p hp _ hm le_rfl).point.1]
  simp only [ok_bind]
  match l, hne with
  | p :: l, _ =>
    simp only [List.map_cons, raysLoop]
    have : rayPoint (pixelToWorldZ inv (warps.map Prod.fst)) s res p (flPt (ground inv warps p s.maxZ)) (flPt (ground inv warps p s.minZ)) =
        .error .attributeError := by
      unfold rayPoint
      have hst : rayStepsFl (maxRaySteps s.shape.1 s.shape.2) res (flPt (ground inv warps p s.maxZ)) (flPt (ground inv warps p s.minZ)) =
          some (raySteps (maxRaySteps s.shape.1 s.shape.2) res (ground inv warps p s.maxZ) (ground inv warps p s.minZ)) := rfl
      rw [hst]
      simp only [array_raw, hi, if_true]
    rw [this]

/-- C108: the boundary of a GCP camera, at an elevation and on a surface, is one world point for each pixel of the image boundary, at the
elevation or between the extremes of the surface; and `world_to_pixel` of the boundary is the image boundary, when GDAL's transforms are
inverse there. -/
theorem C108_gcp (fwd : ℝ × ℝ × ℝ → ℝ × ℝ) (inv : ℝ × ℝ → ℝ → ℝ × ℝ) (im : ℕ × ℕ) (num : Option ℤ) (l : List (ℝ × ℝ))
    (hl : pixelBoundary im num = .ok l) (z : BoundaryZ) (lo hi : ℝ)
    (hz : (z = .scalar lo ∧ lo = hi) ∨ ∃ s res, z = .surface s ∧ s.res = some res ∧ s.dtypeOk = true ∧
      (s.shape.1 < 32767 ∧ s.shape.2 < 32767) ∧ s.interpIsEnum = true ∧ s.minZ = lo ∧ s.maxZ = hi ∧ lo ≤ hi ∧
      ∀ p ∈ l, Short res ((inv (p.1 + 1 / 2, p.2 + 1 / 2) hi).1, (inv (p.1 + 1 / 2, p.2 + 1 / 2) hi).2, hi)
        ((inv (p.1 + 1 / 2, p.2 + 1 / 2) lo).1, (inv (p.1 + 1 / 2, p.2 + 1 / 2) lo).2, lo))
    (hinv : ∀ p ∈ l, ∀ z, lo ≤ z → z ≤ hi → fwd ((inv (p.1 + 1 / 2, p.2 + 1 / 2) z).1, (inv (p.1 + 1 / 2, p.2 + 1 / 2) z).2, z) =
      (p.1 + 1 / 2, p.2 + 1 / 2)) :
    ∃ Xs : List (ℝ × ℝ × ℝ), gcpBoundary inv im z num = .ok (Xs.map flPt) ∧ (∀ X ∈ Xs, lo ≤ X.2.2 ∧ X.2.2 ≤ hi) ∧
      Xs.map (gcpWorldToPixel fwd) = l := by
  have hp : gcpPixelToWorldZ inv = pixelToWorldZ inv ((none : Option Warps).map Prod.fst) := rfl
  have back : ∀ p ∈ l, ∀ z, lo ≤ z → z ≤ hi → gcpWorldToPixel fwd (ground inv none p z) = p := by
    intro p hpl z h1 h2
    have : ground inv none p z = ((inv (p.1 + 1 / 2, p.2 + 1 / 2) z).1, (inv (p.1 + 1 / 2, p.2 + 1 / 2) z).2, z) := rfl
    rw [this, gcpWorldToPixel, hinv p hpl z h1 h2]
    simp
  unfold gcpBoundary baseBoundary
  rw [hl]
  simp only [ok_bind, hp]
  rcases hz with ⟨rfl, rfl⟩ | ⟨s, res, rfl, hr, hdt, hsh, hie, rfl, rfl, hm, hs⟩
  · refine ⟨l.map fun p => ground inv none p lo, ?_, ?_, ?_⟩
    · simp only
      rw [scalar_eq inv none l lo fun p _ => rfl, List.map_map]
      rfl
    · intro X hX
      obtain ⟨p, -, rfl⟩ := List.mem_map.1 hX
      exact ⟨le_rfl, le_rfl⟩
    · rw [List.map_map]
      conv_rhs => rw [← List.map_id l]
      exact List.map_congr_left fun p hpl => back p hpl lo le_rfl le_rfl
  · simp only [hr]
    have key : ∀ p ∈ l, ∃ z, s.minZ ≤ z ∧ z ≤ s.maxZ ∧
        surfPoint (ground inv none p) s.surf (maxRaySteps s.shape.1 s.shape.2) res s.minZ s.maxZ = ground inv none p z := by
      intro p _
      obtain ⟨k, -, hp, h1, h2, -⟩ := Frame.C41_first (ground inv none p) s.surf (maxRaySteps s.shape.1 s.shape.2)
        (by have := Frame.maxRaySteps_ge s.shape.1 s.shape.2; omega) res s.minZ s.maxZ hm
      exact ⟨_, h1, h2, hp⟩
    refine ⟨l.map fun p => surfPoint (ground inv none p) s.surf (maxRaySteps s.shape.1 s.shape.2) res s.minZ s.maxZ, ?_, ?_, ?_⟩
    · rw [surfBoundary_eq inv none s hm hdt hsh hie res l (fun p _ z _ _ => rfl) hs, List.map_map]
      rfl
    · intro X hX
      obtain ⟨p, hpl, rfl⟩ := List.mem_map.1 hX
      obtain ⟨z, h1, h2, he⟩ := key p hpl
      rw [he]
      exact ⟨h1, h2⟩
    · rw [List.map_map]
      conv_rhs => rw [← List.map_id l]
      refine List.map_congr_left fun p hpl => ?_
      obtain ⟨z, h1, h2, he⟩ := key p hpl
      simp only [Function.comp, he, id]
      exact back p hpl z h1 h2

/-! ## Surfaces that are missed -/

/-- The model j = L + b H², i = P. -/
def bowRpc (b : ℝ) : Rpc ℝ where
  longOff := 0
  latOff := 0
  heightOff := 0
  longScale := 1
  latScale := 1
  heightScale := 1
  sampOff := 0
  lineOff := 0
  sampScale := 1
  lineScale := 1
  sampNum i := if i = 1 then 1 else if i = 9 then b else 0
  sampDen i := if i = 0 then 1 else 0
  lineNum i := if i = 2 then 1 else 0
  lineDen i := if i = 0 then 1 else 0
  err := (none, none)

/-- Its inverse. -/
def bowInv (b : ℝ) : ℝ × ℝ → ℝ → ℝ × ℝ := fun p z => (p.1 - 1 / 2 - b * z ^ 2, p.2 - 1 / 2)

theorem bow_right (b : ℝ) (p : ℝ × ℝ) (z : ℝ) : RightAt (bowInv b) (bowRpc b) none p z := by
  refine ⟨⟨?_, ?_, ?_, ?_, ?_⟩, ?_, ?_⟩
  · simp [bowRpc]
  · simp [bowRpc]
  · simp [bowRpc]
  · rw [← C29_poly]; simp [poly, bowRpc]
  · rw [← C29_poly]; simp [poly, bowRpc]
  · apply Prod.ext
    · simp [project, normXyz, poly, bowRpc, bowInv]; ring
    · simp [project, normXyz, poly, bowRpc, bowInv]
  · intro _ _ h; cases h

/-- A surface with a level plain at zero, a hill up to one in the east and a valley down to minus one in the west. -/
def plain (R : ℝ) : Surface where
  shape := (200, 200)
  dtypeOk := true
  minZ := -1
  maxZ := 1
  res := some (1, -1)
  interpIsEnum := true
  surf x _ := .val (max 0 (min 1 (x - R)) - max 0 (min 1 (-x - R)))

theorem plain_zero {R x y : ℝ} (h : |x| ≤ R) : (plain R).surf x y = .val 0 := by
  have := abs_le.1 h
  simp only [plain]
  rw [max_eq_left ((min_le_right _ _).trans (by linarith)), max_eq_left ((min_le_right _ _).trans (by linarith)), sub_zero]

/-- C108: the accuracy does not hold for all RPC models and surfaces: there are ones, with GDAL's inverse exact and a continuous surface that
attains its extremes, for which all points of the boundary are `b` pixels of the surface away in x from the only place where the ground of
the pixel meets the surface; for any `b`.
The points are at the maximum of the surface. -/
theorem C108_accuracy_fails (b : ℝ) (hb : 0 ≤ b) : ∃ (inv : ℝ × ℝ → ℝ → ℝ × ℝ) (r : Rpc ℝ) (s : Surface) (f : ℝ → ℝ),
    (∀ p z, RightAt inv r none p z) ∧ s.res = some (1, -1) ∧ Continuous f ∧ (∀ x y, s.surf x y = .val (f x) ∧ s.minZ ≤ f x ∧ f x ≤ s.maxZ) ∧
    (∃ x, f x = s.minZ) ∧ (∃ x, f x = s.maxZ) ∧ ∃ (Xs : List (ℝ × ℝ × ℝ)) (l : List (ℝ × ℝ)), pixelBoundary (3, 3) none = .ok l ∧
      rpcBoundary inv none (3, 3) (.surface s) none = .ok (Xs.map flPt) ∧ List.Forall₂ (fun X p => X.2.2 = s.maxZ ∧
        (∃ Y, Ground inv none p 0 Y ∧ s.surf Y.1 Y.2.1 = .val 0) ∧
        ∀ z Y, s.minZ ≤ z → z ≤ s.maxZ → Ground inv none p z Y → s.surf Y.1 Y.2.1 = .val z → z = 0 ∧ |X.1 - Y.1| = b) Xs l := by
  refine ⟨bowInv b, bowRpc b, plain (b + 2), fun x => max 0 (min 1 (x - (b + 2))) - max 0 (min 1 (-x - (b + 2))), bow_right b, rfl,
    by fun_prop, fun x y => ⟨rfl, ?_, ?_⟩, ⟨-(b + 3), ?_⟩, ⟨b + 3, ?_⟩, ?_⟩
  · have h1 : (0 : ℝ) ≤ max 0 (min 1 (x - (b + 2))) := le_max_left _ _
    have h2 : max 0 (min 1 (-x - (b + 2))) ≤ (1 : ℝ) := max_le (by norm_num) (min_le_left _ _)
    show (-1 : ℝ) ≤ _
    linarith
  · have h1 : max 0 (min 1 (x - (b + 2))) ≤ (1 : ℝ) := max_le (by norm_num) (min_le_left _ _)
    have h2 : (0 : ℝ) ≤ max 0 (min 1 (-x - (b + 2))) := le_max_left _ _
    show _ ≤ (1 : ℝ)
    linarith
  · show max 0 (min 1 (-(b + 3) - (b + 2))) - max 0 (min 1 (-(-(b + 3)) - (b + 2))) = (-1 : ℝ)
    rw [show -(-(b + 3)) - (b + 2) = 1 by ring, max_eq_left ((min_le_right _ _).trans (by linarith))]
    norm_num
  · show max 0 (min 1 (b + 3 - (b + 2))) - max 0 (min 1 (-(b + 3) - (b + 2))) = (1 : ℝ)
    rw [show b + 3 - (b + 2) = 1 by ring, max_eq_left (a := (0 : ℝ)) (b := min 1 (-(b + 3) - (b + 2))) ((min_le_right _ _).trans (by linarith))]
    norm_num
  obtain ⟨l, hl, -, -⟩ := Frame.C42_default (K := ℝ) (3, 3) none (.inl rfl)
  have hon := Frame.C42_on_border (K := ℝ) (3, 3) (by norm_num) (by norm_num) none l hl
  have hgr : ∀ (p : ℝ × ℝ) (z : ℝ), ground (bowInv b) none p z = (p.1 - b * z ^ 2, p.2, z) := by
    intro p z
    simp [ground, worldPoint, bowInv]
  have hlev : ∀ p ∈ l, ∀ z, (-1 : ℝ) ≤ z → z ≤ 1 → ∀ y, (plain (b + 2)).surf (p.1 - b * z ^ 2) y = .val 0 := by
    intro p hp z h1 h2 y
    apply plain_zero
    have := (hon p hp).1
    norm_num at this
    have hz : z ^ 2 ≤ 1 := by nlinarith
    have hz0 : 0 ≤ z ^ 2 := sq_nonneg z
    rw [abs_le]
    constructor <;> nlinarith
  have hpt : ∀ p ∈ l, surfPoint (ground (bowInv b) none p) (plain (b + 2)).surf (maxRaySteps 200 200) (1, -1) (-1) 1 =
      (p.1 - b, p.2, 1) := by
    intro p hp
    have hn : raySteps (maxRaySteps 200 200) ((1, -1) : ℝ × ℝ) (ground (bowInv b) none p 1) (ground (bowInv b) none p (-1)) = 1 := by
      have := Frame.maxRaySteps_ge 200 200
      unfold raySteps
      rw [hgr, hgr]
      norm_num
      omega
    have h0 : (plain (b + 2)).surf (p.1 - b) p.2 = .val 0 := by
      have := hlev p hp 1 (by norm_num) le_rfl p.2
      simpa using this
    unfold surfPoint
    simp only [hn]
    simp only [linspace, List.range_one, List.map_cons, List.map_nil, Nat.cast_zero, zero_mul, add_zero, hgr, one_pow, mul_one]
    have hh : hits (plain (b + 2)).surf (p.1 - b, p.2, 1) = false := by simp [hits, h0]
    simp only [List.find?_cons, hh, List.find?_nil]
    rfl
  refine ⟨l.map fun p => (p.1 - b, p.2, 1), l, hl, ?_, ?_⟩
  · unfold rpcBoundary baseBoundary
    rw [hl]
    simp only [ok_bind]
    show surfBoundary _ l (plain (b + 2)) (1, -1) = _
    rw [surfBoundary_eq (bowInv b) none (plain (b + 2)) (by norm_num [plain]) rfl (by norm_num [plain]) rfl (1, -1) l
      (fun p _ z _ _ => rfl) (fun p _ => by simp [hgr, Short, plain]), List.map_map]
    exact congrArg Except.ok (List.map_congr_left fun p hp => congrArg flPt (hpt p hp))
  · rw [List.forall₂_map_left_iff, List.forall₂_same]
    intro p hp
    refine ⟨rfl, ⟨ground (bowInv b) none p 0, rfl, ?_⟩, ?_⟩
    · rw [hgr]
      exact hlev p hp 0 (by norm_num) (by norm_num) _
    · intro z Y h1 h2 hY hs
      have hY' : Y = ground (bowInv b) none p z := hY
      rw [hY', hgr] at hs ⊢
      rw [hlev p hp z h1 h2] at hs
      have hz : z = 0 := (Fl.val.inj hs).symm
      subst hz
      refine ⟨rfl, ?_⟩
      simp only
      rw [show p.1 - b - (p.1 - b * 0 ^ 2) = -b by ring, abs_neg, abs_of_nonneg hb]

/-- The hypotheses of `C108_surface` hold for a camera whose rays bend, over the plain. -/
example : ∃ Xs : List (ℝ × ℝ × ℝ), rpcBoundary (bowInv 4) none (3, 3) (.surface (plain 100)) none = .ok (Xs.map flPt) ∧
    worldToPixel none (bowRpc 4) (Xs.map flPt) = pix [(0, 0), (1, 0), (2, 0), (2, 1), (2, 2), (1, 2), (0, 2), (0, 1)] := by
  have hl : pixelBoundary (K := ℝ) (3, 3) none = .ok [(0, 0), (1, 0), (2, 0), (2, 1), (2, 2), (1, 2), (0, 2), (0, 1)] := by
    simp [pixelBoundary]; norm_num
  obtain ⟨Xs, h1, -, h2⟩ := C108_surface (bowInv 4) none (bowRpc 4) (3, 3) none _ hl (plain 100) (1, -1) rfl rfl (by norm_num [plain]) rfl
    (by norm_num [plain]) (fun p _ z _ _ => bow_right 4 p z) fun p _ A B hA hB => by
      have hA : A = _ := hA
      have hB : B = _ := hB
      subst hA hB
      norm_num [Short, plain, bowInv]
  exact ⟨Xs, h1, h2⟩

/-- The hypotheses of `C108_accuracy_partial` hold for a camera whose rays bend, over a table at 3/2 with elevations from 1 to 2: the ground
moves no more than 4/3 times as fast as on average. -/
example : ∃ Xs : List (ℝ × ℝ × ℝ), rpcBoundary (bowInv 4) none (3, 3)
    (.surface { plain 100 with minZ := 1, maxZ := 2, surf := fun _ _ => .val (3 / 2) }) none = .ok (Xs.map flPt) ∧
    List.Forall₂ (fun X p => |X.1 - (p.1 - 9)| ≤ 4 / 3 ∧ |X.2.1 - p.2| ≤ 4 / 3) Xs
      [(0, 0), (1, 0), (2, 0), (2, 1), (2, 2), (1, 2), (0, 2), (0, 1)] := by
  have hl : pixelBoundary (K := ℝ) (3, 3) none = .ok [(0, 0), (1, 0), (2, 0), (2, 1), (2, 2), (1, 2), (0, 2), (0, 1)] := by
    simp [pixelBoundary]; norm_num
  have un : ∀ p : ℝ × ℝ, Uneven (fun z => p.1 - 4 * z ^ 2) 1 2 (4 / 3) ∧ Uneven (fun _ => p.2) 1 2 (4 / 3) := by
    intro p
    constructor
    · intro z z' h1 h2 h3 h4
      rw [show p.1 - 4 * z ^ 2 - (p.1 - 4 * z' ^ 2) = -(4 * (z + z')) * (z - z') by ring, abs_mul, abs_neg, abs_of_nonneg (by linarith),
        show |p.1 - 4 * 2 ^ 2 - (p.1 - 4 * 1 ^ 2)| = (12 : ℝ) by rw [show p.1 - 4 * 2 ^ 2 - (p.1 - 4 * 1 ^ 2) = (-12 : ℝ) by ring]; norm_num]
      have := abs_nonneg (z - z')
      nlinarith
    · intro z z' _ _ _ _
      simp
  obtain ⟨Xs, h1, h2⟩ := C108_accuracy_partial (bowInv 4) none (bowRpc 4) (3, 3) none _ hl
    { plain 100 with minZ := 1, maxZ := 2, surf := fun _ _ => .val (3 / 2) } (1, -1) rfl (by norm_num) rfl (by norm_num [plain]) rfl
    (by norm_num) (fun p _ z _ _ => bow_right 4 p z) (4 / 3) (by norm_num) (fun p z => (p.1 - 4 * z ^ 2, p.2, z))
    (fun p _ z _ _ => by simp [Ground, bowInv]) (fun p _ => un p)
    (fun p _ => by
      have e : p.1 - 4 * 1 ^ 2 - (p.1 - 4 * 2 ^ 2) = (12 : ℝ) := by ring
      simp only [Short, e]
      norm_num)
    (fun p _ => ⟨fun _ => 3 / 2, continuousOn_const, fun z _ _ => ⟨rfl, by norm_num, by norm_num⟩⟩)
  refine ⟨Xs, h1, h2.imp fun X p ⟨z, hz, hx, hy⟩ => ?_⟩
  have hz' : z = 3 / 2 := (Fl.val.inj hz).symm
  subst hz'
  norm_num at hx hy
  exact ⟨hx, hy⟩

/-- Over a surface from 0 to 100 with pixels of 1, the ground of the pixels of the same camera moves by 40000. -/
example : rpcBoundary (bowInv 4) none (3, 3) (.surface { plain 100 with minZ := 0, maxZ := 100 }) none = .error .cvError := by
  have hl : pixelBoundary (K := ℝ) (3, 3) none = .ok [(0, 0), (1, 0), (2, 0), (2, 1), (2, 2), (1, 2), (0, 2), (0, 1)] := by
    simp [pixelBoundary]; norm_num
  refine (C108_long_fails (bowInv 4) none (bowRpc 4) (3, 3) none _ hl { plain 100 with minZ := 0, maxZ := 100 } (1, -1) rfl rfl
    (by norm_num [plain]) rfl (by norm_num) fun p _ z _ _ => bow_right 4 p z).2 ⟨(0, 0), by simp, _, _, rfl, rfl, .inr (.inr (.inl ?_))⟩
  norm_num [bowInv]

/-- `C108_gcp` on a surface, with the transforms of a parallel projection. -/
example : ∃ Xs : List (ℝ × ℝ × ℝ), gcpBoundary (fun q z => (q.1 + z, q.2)) (3, 3) (.surface (plain 100)) none = .ok (Xs.map flPt) ∧
    Xs.map (gcpWorldToPixel fun X => (X.1 - X.2.2, X.2.1)) = [(0, 0), (1, 0), (2, 0), (2, 1), (2, 2), (1, 2), (0, 2), (0, 1)] := by
  have hl : pixelBoundary (K := ℝ) (3, 3) none = .ok [(0, 0), (1, 0), (2, 0), (2, 1), (2, 2), (1, 2), (0, 2), (0, 1)] := by
    simp [pixelBoundary]; norm_num
  obtain ⟨Xs, h1, -, h2⟩ := C108_gcp (fun X => (X.1 - X.2.2, X.2.1)) (fun q z => (q.1 + z, q.2)) (3, 3) none _ hl (.surface (plain 100)) (-1) 1
    (.inr ⟨plain 100, (1, -1), rfl, rfl, rfl, by norm_num [plain], rfl, rfl, rfl, by norm_num, fun p _ => by norm_num [Short]⟩)
    fun p _ z _ _ => by simp
  exact ⟨Xs, h1, h2⟩

/-- `C108_finite` when the ground of the pixels cannot be transformed to the camera's CRS between the extremes of the surface. -/
example : ∃ Xs, rpcBoundary (fun q z => (q.1 + z, q.2)) (some (fun X => if |X.2.2| < 1 then (.nan, .nan, .nan) else flPt X, flPt)) (3, 3)
    (.surface (plain 100)) none = .ok Xs ∧ ∀ X ∈ Xs, X.1 ≠ .nan ∧ X.2.1 ≠ .nan := by
  set w : Warps := (fun X => if |X.2.2| < 1 then (.nan, .nan, .nan) else flPt X, flPt) with hw
  have ray : ∀ q : ℝ × ℝ, ∃ X, rayPoint (pixelToWorldZ (fun q z => (q.1 + z, q.2)) (some w.1)) (plain 100) (1, -1) q
      (worldPoint (fun q z => (q.1 + z, q.2)) (some w.1) q.1 q.2 1) (worldPoint (fun q z => (q.1 + z, q.2)) (some w.1) q.1 q.2 (-1)) = .ok X := by
    intro q
    have hs := (Frame.raySteps_lt_iff (cap := maxRaySteps (plain 100).shape.1 (plain 100).shape.2) (by unfold maxRaySteps; omega) (1, -1)
      (q.1 + 1 / 2 + 1, q.2 + 1 / 2, (0 : ℝ)) (q.1 + 1 / 2 + -1, q.2 + 1 / 2, 0)).2 (by norm_num [Short])
    unfold rayPoint
    simp only [worldPoint, hw, abs_one, abs_neg, lt_irrefl, if_false, flPt, rayStepsFl]
    have : ∀ n, pixelToWorldZ (fun q z => (q.1 + z, q.2)) (some w.1) (pix [q]) (.array ((linspace (plain 100).maxZ (plain 100).minZ n).map Fl.val)) = _ :=
      fun n => array_raw _ _ q _
    simp only [hw, flPt] at this
    rw [this]
    simp only
    rw [if_neg (by simp [plain]), if_neg (by
      have : (plain 100).shape.1 < 32767 ∧ (plain 100).shape.2 < 32767 := by norm_num [plain]
      omega)]
    split <;> exact ⟨_, rfl⟩
  have loop : ∀ l : List (ℝ × ℝ), ∃ Xs, raysLoop (pixelToWorldZ (fun q z => (q.1 + z, q.2)) (some w.1)) (plain 100) (1, -1) l
      (l.map fun p => worldPoint (fun q z => (q.1 + z, q.2)) (some w.1) p.1 p.2 1)
      (l.map fun p => worldPoint (fun q z => (q.1 + z, q.2)) (some w.1) p.1 p.2 (-1)) = .ok Xs := by
    intro l
    induction l with
    | nil => exact ⟨[], rfl⟩
    | cons q l ih =>
      obtain ⟨X, hX⟩ := ray q
      obtain ⟨Xs, h⟩ := ih
      exact ⟨X :: Xs, by simp only [List.map_cons, raysLoop, hX, h]⟩
  have hl : pixelBoundary (K := ℝ) (3, 3) none = .ok [(0, 0), (1, 0), (2, 0), (2, 1), (2, 2), (1, 2), (0, 2), (0, 1)] := by
    simp [pixelBoundary]; norm_num
  obtain ⟨Xs, h⟩ := loop [(0, 0), (1, 0), (2, 0), (2, 1), (2, 2), (1, 2), (0, 2), (0, 1)]
  have hb : rpcBoundary (fun q z => (q.1 + z, q.2)) (some w) (3, 3) (.surface (plain 100)) none = .ok Xs := by
    unfold rpcBoundary baseBoundary
    rw [hl]
    simp only [ok_bind, show (plain 100).res = some (1, -1) from rfl]
    unfold surfBoundary
    rw [if_neg (by simp [plain]), if_neg (by norm_num [plain]), scalar_raw, scalar_raw]
    exact h
  exact ⟨Xs, hb, C108_finite _ _ _ _ _ _ hb⟩

/-- `C73_inverse_local` for three pixels at three heights. -/
example : ∃ Xs : List (ℝ × ℝ × ℝ), pixelToWorldZ (bowInv 4) none (pix [(1, 2), (3, 4), (5, 6)]) (.array [.val 7, .val 8, .val 9]) =
    .ok (Xs.map flPt) ∧ worldToPixel none (bowRpc 4) (Xs.map flPt) = pix [(1, 2), (3, 4), (5, 6)] := by
  obtain ⟨Xs, h1, -, h2⟩ := C73_inverse_local (bowInv 4) (bowRpc 4) none [(1, 2), (3, 4), (5, 6)] (.array [.val 7, .val 8, .val 9]) [7, 8, 9]
    (Heights.array [Fl.val 7, .val 8, .val 9]) fun q _ => bow_right 4 q.1 q.2
  exact ⟨Xs, h1, h2⟩

end

end Verif.RpcCam
