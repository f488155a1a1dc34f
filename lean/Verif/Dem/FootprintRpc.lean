import Verif.Dem.FootprintGcp

/-!
# The polygon of the boundary of RPC cameras (C107)
-/

set_option autoImplicit false

namespace Verif.Dem

open Verif.Frame (InIm)
open Verif.RpcCam Verif.Common Verif.Ortho

noncomputable section

/-- The model j = L, i = P + 4 b L² - 4 b L. -/
def humpRpc (b : ℝ) : Rpc ℝ :=
  { bowRpc 0 with lineNum := fun i => if i = 2 then 1 else if i = 1 then -(4 * b) else if i = 7 then 4 * b else 0 }

theorem hump_defined (b : ℝ) (p : ℝ × ℝ × ℝ) : Defined (humpRpc b) p := by
  refine ⟨?_, ?_, ?_, ?_, ?_⟩
  · simp [humpRpc, bowRpc]
  · simp [humpRpc, bowRpc]
  · simp [humpRpc, bowRpc]
  · rw [← C29_poly]; simp [poly, humpRpc, bowRpc]
  · rw [← C29_poly]; simp [poly, humpRpc, bowRpc]

theorem hump_project (b x y z : ℝ) : project (humpRpc b) (x, y, z) = (x, y + 4 * b * x * (x - 1)) := by
  apply Prod.ext
  · simp [project, normXyz, poly, humpRpc, bowRpc]
  · simp [project, normXyz, poly, humpRpc, bowRpc]; ring

theorem hump_right (b : ℝ) (p : ℝ × ℝ) (z : ℝ) : RightAt (humpInv b) (humpRpc b) none p z := by
  refine ⟨hump_defined b _, ?_, ?_⟩
  · rw [hump_project]
    simp [humpInv]
  · intro _ _ h; cases h

theorem hump_pixel (b x y z : ℝ) : worldToPixel none (humpRpc b) [flPt (x, y, z)] = pix [(x, y + 4 * b * x * (x - 1))] := by
  rw [C29_pointwise]
  have := evalPoint_val (humpRpc b) (x, y, z) (hump_defined b _)
  rw [hump_project] at this
  simp only [List.map_cons, List.map_nil, toRpcCrs, flPt, pix]
  rw [this]

/-- C107 does not hold for all RPC cameras: for any `b` there is a model, of which GDAL's inverse is exact, such that on level ground at any
elevation ground that is seen is farther than `b` from the polygon of the boundary with its default points. -/
theorem C107_rpc_fails (b : ℝ) (hb : 0 < b) (z : ℝ) : ∃ (inv : ℝ × ℝ → ℝ → ℝ × ℝ) (r : Rpc ℝ) (Xs : List (ℝ × ℝ × ℝ)) (q : ℝ × ℝ),
    (∀ p z, RightAt inv r none p z) ∧ rpcBoundary inv none (3, 3) (.scalar z) none = .ok (Xs.map flPt) ∧ RpcSeesAt none r (3, 3) q z ∧
    ∀ q' ∈ convexHull ℝ {q : ℝ × ℝ | ∃ X ∈ Xs, q = (X.1, X.2.1)}, q'.2 + b ≤ q.2 := by
  refine ⟨humpInv b, humpRpc b, _, (1 / 2, 2 + b), hump_right b, gcp_boundary (humpInv b) (3, 3) z, ⟨(1 / 2, 2), ?_, ?_⟩, hump_hull b hb z⟩
  · refine ⟨?_, ?_, ?_, ?_⟩ <;> norm_num
  · show worldToPixel none _ _ = _
    rw [hump_pixel]
    congr 2
    refine Prod.ext rfl ?_
    simp only
    ring

/-- `C107_rpc_fails` with ground 7 outside the polygon. -/
example : ∃ (inv : ℝ × ℝ → ℝ → ℝ × ℝ) (r : Rpc ℝ) (Xs : List (ℝ × ℝ × ℝ)) (q : ℝ × ℝ),
    rpcBoundary inv none (3, 3) (.scalar 100) none = .ok (Xs.map flPt) ∧ RpcSeesAt none r (3, 3) q 100 ∧
    q ∉ convexHull ℝ {q : ℝ × ℝ | ∃ X ∈ Xs, q = (X.1, X.2.1)} := by
  obtain ⟨inv, r, Xs, q, -, h1, h2, h3⟩ := C107_rpc_fails 7 (by norm_num) 100
  exact ⟨inv, r, Xs, q, h1, h2, fun h => by have := h3 q h; linarith⟩

end

end Verif.Dem
