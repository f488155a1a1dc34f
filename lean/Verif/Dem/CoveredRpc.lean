import Verif.Dem.Covered
import Verif.Rpc.Boundary

/-!
# The warning that an ortho is not fully covered by the DEM, for RPC and GCP cameras (C124)
-/

set_option autoImplicit false

namespace Verif.Dem

open Verif.Frame Verif.Common Verif.Ortho
open Res (ok_bind error_bind)
open Verif.RpcCam (Warps Ground ground flPt rpcBoundary gcpBoundary FiniteAt)

noncomputable section

/-! ## Specification -/

/-- A world point of an RPC or GCP camera as the vector that `_mask_dem` takes. -/
def vec (X : ℝ × ℝ × ℝ) : V3 := ![X.1, X.2.1, X.2.2]

/-- What is assumed of the camera and the DEM surface.  The surface has a transform, a type that OpenCV takes, and fewer than 32767 rows and columns; the boundary
pixels `l` have ground, at heights between the extremes of the surface, that the CRS transforms keep; and it crosses at most 32765 pixels of the surface
(`C108_long_fails`). -/
structure Usable (inv : ℝ × ℝ → ℝ → ℝ × ℝ) (warps : Option Warps) (l : List (ℝ × ℝ)) (s : Surface) (res : ℝ × ℝ) : Prop where
  resolution : s.res = some res
  res0 : res.1 ≠ 0 ∧ res.2 ≠ 0
  type : s.dtypeOk = true
  shape : s.shape.1 < 32767 ∧ s.shape.2 < 32767
  interp : s.interpIsEnum = true
  ground : ∀ p ∈ l, ∀ z, s.minZ ≤ z → z ≤ s.maxZ → ∃ x y, Ground inv warps p z (x, y, z)
  short : ∀ p ∈ l, ∀ A B, Ground inv warps p s.maxZ A → Ground inv warps p s.minZ B → Short res A B

/-! ## Lemmas -/

theorem ground_eq {inv : ℝ × ℝ → ℝ → ℝ × ℝ} {warps : Option Warps} {p : ℝ × ℝ} {z : ℝ} {X : ℝ × ℝ × ℝ} (h : Ground inv warps p z X) :
    FiniteAt inv warps p z ∧ ground inv warps p z = X := by
  have e : RpcCam.worldPoint inv (warps.map Prod.fst) p.1 p.2 z = flPt X := by
    cases warps with
    | none => rw [show X = _ from h]; rfl
    | some w => exact h
  have e2 : ground inv warps p z = X := by
    unfold ground
    rw [e]
    rfl
  exact ⟨by unfold FiniteAt; rw [e2]; exact e, e2⟩

/-- What a boundary on a surface is. -/
theorem rpc_points {inv : ℝ × ℝ → ℝ → ℝ × ℝ} {warps : Option Warps} {im : ℕ × ℕ} {num : Option ℤ} {l : List (ℝ × ℝ)} (hl : pixelBoundary im num = .ok l)
    {s : Surface} {res : ℝ × ℝ} (hu : Usable inv warps l s res) (hm : s.minZ ≤ s.maxZ) :
    ∃ Xs : List (ℝ × ℝ × ℝ), rpcBoundary inv warps im (.surface s) num = .ok (Xs.map flPt) ∧
      List.Forall₂ (fun X p => (s.minZ ≤ X.2.2 ∧ X.2.2 ≤ s.maxZ ∧ Ground inv warps p X.2.2 X) ∧
        ((∃ z, s.surf X.1 X.2.1 = .val z) ∨ ∃ Y, Ground inv warps p s.minZ Y ∧ X.1 = Y.1 ∧ X.2.1 = Y.2.1)) Xs l := by
  have hg : ∀ p ∈ l, ∀ z, s.minZ ≤ z → z ≤ s.maxZ → FiniteAt inv warps p z ∧ (ground inv warps p z).2.2 = z ∧ Ground inv warps p z (ground inv warps p z) := by
    intro p hp z h1 h2
    obtain ⟨x, y, h⟩ := hu.ground p hp z h1 h2
    obtain ⟨a, b⟩ := ground_eq h
    exact ⟨a, by rw [b], by rw [b]; exact h⟩
  refine ⟨l.map fun p => surfPoint (ground inv warps p) s.surf (maxRaySteps s.shape.1 s.shape.2) res s.minZ s.maxZ, ?_, ?_⟩
  · unfold rpcBoundary RpcCam.baseBoundary
    rw [hl]
    simp only [ok_bind, hu.resolution]
    rw [RpcCam.surfBoundary_eq inv warps s hm hu.type hu.shape hu.interp res l (fun p hp z h1 h2 => (hg p hp z h1 h2).1)
      fun p hp => hu.short p hp _ _ (hg p hp _ hm le_rfl).2.2 (hg p hp _ le_rfl hm).2.2, List.map_map]
    rfl
  · rw [List.forall₂_map_left_iff, List.forall₂_same]
    intro p hp
    have hcap : 1 < maxRaySteps s.shape.1 s.shape.2 := lt_of_lt_of_le (by norm_num) (maxRaySteps_ge _ _)
    constructor
    · obtain ⟨k, -, he, h1, h2, -⟩ := C41_first (ground inv warps p) s.surf (maxRaySteps s.shape.1 s.shape.2) (by omega) res s.minZ s.maxZ hm
      have := hg p hp _ h1 h2
      rw [he, this.2.1]
      exact ⟨h1, h2, this.2.2⟩
    · rcases surfPoint_cases (ground inv warps p) s.surf hcap hu.res0 hm with h | h
      · exact .inl h
      · exact .inr ⟨_, (hg p hp _ le_rfl hm).2.2, h.1, h.2⟩

theorem surface_le {o : DemOut ℝ} {s : Surface} (hs : SurfaceOf o s) : s.minZ ≤ s.maxZ := by
  obtain ⟨r, h1, k, h2, h3⟩ := hs.lo
  exact (hs.all r h1 k h2 _ h3).2

theorem flPt_inj {X Y : ℝ × ℝ × ℝ} (h : flPt X = flPt Y) : X = Y := by
  obtain ⟨a, b, c⟩ := X
  obtain ⟨a', b', c'⟩ := Y
  simp only [flPt, Prod.mk.injEq, Fl.val.injEq] at h
  obtain ⟨rfl, rfl, rfl⟩ := h
  rfl

theorem points_of {inv : ℝ × ℝ → ℝ → ℝ × ℝ} {warps : Option Warps} {im : ℕ × ℕ} {num : Option ℤ} {l : List (ℝ × ℝ)} (hl : pixelBoundary im num = .ok l)
    {s : Surface} {res : ℝ × ℝ} (hu : Usable inv warps l s res) (hm : s.minZ ≤ s.maxZ) {Xs : List (ℝ × ℝ × ℝ)}
    (hX : rpcBoundary inv warps im (.surface s) num = .ok (Xs.map flPt)) :
    List.Forall₂ (fun X p => (s.minZ ≤ X.2.2 ∧ X.2.2 ≤ s.maxZ ∧ Ground inv warps p X.2.2 X) ∧
        ((∃ z, s.surf X.1 X.2.1 = .val z) ∨ ∃ Y, Ground inv warps p s.minZ Y ∧ X.1 = Y.1 ∧ X.2.1 = Y.2.1)) Xs l := by
  obtain ⟨Ys, hY, h⟩ := rpc_points hl hu hm
  rw [hY] at hX
  have : Ys = Xs := List.map_injective_iff.2 (fun _ _ => flPt_inj) (Except.ok.inj hX)
  rwa [this] at h

/-! ## Theorems -/

/-- C124 for RPC cameras: a warning is given if the DEM leaves out a pixel of the image boundary: one whose ground is outside the DEM at all elevations from the
lowest to the highest of the DEM. -/
theorem C124_rpc_left_out {inv : ℝ × ℝ → ℝ → ℝ × ℝ} {warps : Option Warps} {im : ℕ × ℕ} {num : Option ℤ} {l : List (ℝ × ℝ)}
    (hl : pixelBoundary im num = .ok l) {o : DemOut ℝ} (ht : o.t.det ≠ 0) {s : Surface} (hs : SurfaceOf o s) {res : ℝ × ℝ} (hu : Usable inv warps l s res)
    {Xs : List (ℝ × ℝ × ℝ)} (hX : rpcBoundary inv warps im (.surface s) num = .ok (Xs.map flPt)) {fill : List (ℤ × ℤ) → ℕ → ℕ → Bool} {crop mask : Bool}
    {mo : MaskOut ℝ} (hmo : maskDem (boundaryMask o (Xs.map vec) fill) crop mask = .ok mo) {p : ℝ × ℝ} (hp : p ∈ l)
    (hout : ∀ z X, s.minZ ≤ z → z ≤ s.maxZ → Ground inv warps p z X → OutDem o X.1 X.2.1) : mo.warned = true := by
  have hb := points_of hl hu (surface_le hs) hX
  obtain ⟨i, hi, rfl⟩ := List.getElem_of_mem hp
  have hlen := hb.length_eq
  have hk := (List.forall₂_iff_get.1 hb).2 i (by omega) hi
  refine C124_warns ht hmo (.inr ⟨vec Xs[i], List.mem_map_of_mem (List.getElem_mem _), ?_⟩)
  exact hout _ _ hk.1.1 hk.1.2.1 hk.1.2.2

/-- C124 for RPC cameras: no warning is given for a DEM without missing elevations if the ground of the image boundary is inside the DEM at the lowest elevation of the
DEM. -/
theorem C124_rpc_lowest {inv : ℝ × ℝ → ℝ → ℝ × ℝ} {warps : Option Warps} {im : ℕ × ℕ} {num : Option ℤ} {l : List (ℝ × ℝ)} (hne : l ≠ [])
    (hl : pixelBoundary im num = .ok l) {o : DemOut ℝ} (ht : o.t.det ≠ 0) (hval : ∀ r < o.h, ∀ k < o.w, o.arr r k ≠ none) {s : Surface} (hs : SurfaceOf o s)
    {res : ℝ × ℝ} (hu : Usable inv warps l s res) (hlow : ∀ p ∈ l, ∀ X, Ground inv warps p s.minZ X → InDem o X.1 X.2.1)
    {fill : List (ℤ × ℤ) → ℕ → ℕ → Bool} (hfill : MarksVertices o fill) (crop mask : Bool) :
    ∃ (Xs : List (ℝ × ℝ × ℝ)) (mo : MaskOut ℝ), rpcBoundary inv warps im (.surface s) num = .ok (Xs.map flPt) ∧
      maskDem (boundaryMask o (Xs.map vec) fill) crop mask = .ok mo ∧ mo.warned = false := by
  obtain ⟨Xs, hX, hb⟩ := rpc_points hl hu (surface_le hs)
  have hne' : Xs.map vec ≠ [] := by
    intro h
    rw [List.map_eq_nil_iff] at h
    subst h
    have := hb.length_eq
    exact hne (List.length_eq_zero_iff.1 this.symm)
  obtain ⟨mo, h1, h2⟩ := not_warned ht hval hne' hfill crop mask fun X hXm => by
    obtain ⟨Y, hY, rfl⟩ := List.mem_map.1 hXm
    obtain ⟨i, hi, rfl⟩ := List.getElem_of_mem hY
    have hlen := hb.length_eq
    have hk := (List.forall₂_iff_get.1 hb).2 i hi (by omega)
    rcases hk.2 with ⟨z, hz⟩ | ⟨Y, hY, e1, e2⟩
    · exact hs.inside _ _ z hz
    · have := hlow _ (List.getElem_mem _) Y hY
      rw [← e1, ← e2] at this
      exact this
  exact ⟨Xs, mo, hX, h1, h2⟩

/-- C124 for GCP cameras: as `C124_rpc_left_out` and `C124_rpc_lowest`, with GDAL's reverse transform of the GCPs. -/
theorem C124_gcp {inv : ℝ × ℝ → ℝ → ℝ × ℝ} {im : ℕ × ℕ} {num : Option ℤ} {l : List (ℝ × ℝ)} (hne : l ≠ []) (hl : pixelBoundary im num = .ok l) {o : DemOut ℝ}
    (ht : o.t.det ≠ 0) {s : Surface} (hs : SurfaceOf o s) {res : ℝ × ℝ} (hu : Usable inv none l s res) {fill : List (ℤ × ℤ) → ℕ → ℕ → Bool}
    (hfill : MarksVertices o fill) (crop mask : Bool) :
    ∃ Xs : List (ℝ × ℝ × ℝ), gcpBoundary inv im (.surface s) num = .ok (Xs.map flPt) ∧
      ((∃ p ∈ l, ∀ z, s.minZ ≤ z → z ≤ s.maxZ → OutDem o (inv (p.1 + 1 / 2, p.2 + 1 / 2) z).1 (inv (p.1 + 1 / 2, p.2 + 1 / 2) z).2) →
        ∀ mo, maskDem (boundaryMask o (Xs.map vec) fill) crop mask = .ok mo → mo.warned = true) ∧
      ((∀ r < o.h, ∀ k < o.w, o.arr r k ≠ none) →
        (∀ p ∈ l, InDem o (inv (p.1 + 1 / 2, p.2 + 1 / 2) s.minZ).1 (inv (p.1 + 1 / 2, p.2 + 1 / 2) s.minZ).2) →
        ∃ mo, maskDem (boundaryMask o (Xs.map vec) fill) crop mask = .ok mo ∧ mo.warned = false) := by
  have he : gcpBoundary inv im (.surface s) num = rpcBoundary inv none im (.surface s) num := rfl
  rw [he]
  obtain ⟨Xs, hX, -⟩ := rpc_points hl hu (surface_le hs)
  refine ⟨Xs, hX, ?_, ?_⟩
  · rintro ⟨p, hp, hout⟩ mo hmo
    refine C124_rpc_left_out hl ht hs hu hX hmo hp fun z X h1 h2 h => ?_
    rw [show X = _ from h]
    exact hout z h1 h2
  · intro hval hlow
    obtain ⟨Ys, mo, hY, h1, h2⟩ := C124_rpc_lowest (warps := none) hne hl ht hval hs hu (fun p hp X h => by
      rw [show X = _ from h]
      exact hlow p hp) hfill crop mask
    rw [hX] at hY
    have : Xs = Ys := List.map_injective_iff.2 (fun _ _ => flPt_inj) (Except.ok.inj hY)
    subst this
    exact ⟨mo, h1, h2⟩

/-! ## Examples -/

/-- A level DEM of 8 x 8 pixels, at `a` in x. -/
def boxDem (a : ℝ) : DemOut ℝ := ⟨fun _ _ => some 5, 8, 8, ⟨1, 0, a, 0, 1, -3⟩⟩

def boxSurface (a : ℝ) : Surface := ⟨(8, 8), true, 5, 5, some (1, 1), true, fun x y => by
  classical exact if InDem (boxDem a) x y then .val 5 else .nan⟩

theorem box_surface (a : ℝ) : SurfaceOf (boxDem a) (boxSurface a) := by
  refine ⟨⟨0, Nat.succ_pos 7, 0, Nat.succ_pos 7, rfl⟩, ⟨0, Nat.succ_pos 7, 0, Nat.succ_pos 7, rfl⟩, fun r _ c _ x h => ?_, fun x y z h => ?_⟩
  · obtain rfl := Option.some.inj h
    exact ⟨le_rfl, le_rfl⟩
  · by_contra hn
    simp only [boxSurface, if_neg hn] at h
    cases h

theorem box_usable (a : ℝ) (l : List (ℝ × ℝ)) : Usable (RpcCam.bowInv 0) none l (boxSurface a) (1, 1) := by
  refine ⟨rfl, by norm_num, rfl, by norm_num [boxSurface], rfl, fun p _ z _ _ => ⟨_, _, rfl⟩, fun p _ A B hA hB => ?_⟩
  rw [show A = _ from hA, show B = _ from hB]
  simp [Short, RpcCam.bowInv]

/-- An RPC camera that sees the square from (0, 0) to (2, 2): with the DEM around it there is no warning. -/
example (fill : List (ℤ × ℤ) → ℕ → ℕ → Bool) (hfill : MarksVertices (boxDem (-3)) fill) : ∃ (Xs : List (ℝ × ℝ × ℝ)) (mo : MaskOut ℝ),
    rpcBoundary (RpcCam.bowInv 0) none (3, 3) (.surface (boxSurface (-3))) none = .ok (Xs.map flPt) ∧
      maskDem (boundaryMask (boxDem (-3)) (Xs.map vec) fill) true true = .ok mo ∧ mo.warned = false := by
  obtain ⟨l, hl, hlen, -⟩ := C42_default (K := ℝ) (3, 3) none (.inl rfl)
  have hon := C42_on_border (K := ℝ) (3, 3) (by norm_num) (by norm_num) none l hl
  refine C124_rpc_lowest (by rintro rfl; simp at hlen) hl (by norm_num [boxDem, Affine.det]) (fun _ _ _ _ h => by cases h) (box_surface _) (box_usable _ l)
    (fun p hp X hX => ?_) hfill true true
  rw [show X = _ from hX]
  obtain ⟨⟨h1, h2, h3, h4⟩, -⟩ := hon p hp
  norm_num at h1 h2 h3 h4
  refine ⟨p.1 + 3, p.2 + 3, ⟨by linarith, ?_⟩, ⟨by linarith, ?_⟩, ?_⟩
  · norm_num [boxDem]; linarith
  · norm_num [boxDem]; linarith
  · simp [boxDem, Affine.apply, RpcCam.bowInv]

/-- With the DEM from x = 1 on, there is a warning. -/
example (fill : List (ℤ × ℤ) → ℕ → ℕ → Bool) (Xs : List (ℝ × ℝ × ℝ)) (mo : MaskOut ℝ)
    (hX : rpcBoundary (RpcCam.bowInv 0) none (3, 3) (.surface (boxSurface 1)) none = .ok (Xs.map flPt))
    (hmo : maskDem (boundaryMask (boxDem 1) (Xs.map vec) fill) true true = .ok mo) : mo.warned = true := by
  obtain ⟨l, hl, -, hmem⟩ := C42_default (K := ℝ) (3, 3) none (.inl rfl)
  refine C124_rpc_left_out hl (by norm_num [boxDem, Affine.det]) (box_surface _) (box_usable _ l) hX hmo
    (hmem 0 0 (.inl rfl) (.inl rfl) (by norm_num)) fun z X _ _ h => ?_
  rw [show X = _ from h]
  intro u v huv
  simp only [boxDem, Affine.apply, RpcCam.bowInv, Prod.mk.injEq] at huv
  left
  norm_num at huv
  linarith [huv.1]

end

end Verif.Dem
