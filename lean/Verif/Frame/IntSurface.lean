import Verif.Frame.WorldBoundary

/-!
# Surfaces of whole numbers (C41, C80)
-/

set_option autoImplicit false

namespace Verif.Frame

open Matrix Real
open Res (ok_bind error_bind)

/-! ## Model -/

section

variable {K : Type} [Field K] [LinearOrder K] [IsStrictOrderedRing K] [FloorRing K]

/-- The surface on a ray, orthority/camera.py:156-157, when the data type of the surface is `uint8`, `uint16` or `int16`: the array that is
made with the type of the surface and filled with `nan` has zeros (numpy warns of an invalid cast), which are left where there is no surface. -/
def intSurf (surf : K → K → Fl K) : K → K → Fl K := fun x y =>
  match surf x y with
  | .nan => .val 0
  | .val s => .val s

omit [IsStrictOrderedRing K] [FloorRing K] in
theorem hits_intSurf (surf : K → K → Fl K) (p : K × K × K) :
    hits (intSurf surf) p = (hits surf p || (decide (surf p.1 p.2.1 = .nan) && decide (p.2.2 ≤ 0))) := by
  unfold hits intSurf
  cases surf p.1 p.2.1 <;> simp

/-- C41: surfaces of whole numbers that are above zero are like others. -/
theorem C41_integer_partial (P : K → K × K × K) (hP : ∀ z, (P z).2.2 = z) (surf : K → K → Fl K) (cap : ℕ) (res : K × K)
    (minZ maxZ : K) (hz : minZ ≤ maxZ) (h0 : 0 < minZ) :
    surfPoint P (intSurf surf) cap res minZ maxZ = surfPoint P surf cap res minZ maxZ := by
  have key : ∀ p ∈ (linspace maxZ minZ (raySteps cap res (P maxZ) (P minZ))).map P, hits (intSurf surf) p = hits surf p := by
    intro p hp
    simp only [linspace, List.map_map, List.mem_map, List.mem_range, Function.comp] at hp
    obtain ⟨k, hk, rfl⟩ := hp
    have := (sampleZ_mem minZ maxZ hz _ k hk).1
    unfold sampleZ at this
    rw [hits_intSurf, hP, decide_eq_false (p := _ ≤ (0 : K)) (by linarith)]
    simp
  have hf : ∀ l : List (K × K × K), (∀ p ∈ l, hits (intSurf surf) p = hits surf p) → l.find? (hits (intSurf surf)) = l.find? (hits surf) := by
    intro l
    induction l with
    | nil => intro _; rfl
    | cons a l ih =>
      intro h
      rw [List.find?_cons, List.find?_cons, h a (by simp), ih fun p hp => h p (by simp [hp])]
  unfold surfPoint
  simp only
  rw [hf _ key]

/-- C41: a ray that misses a surface of whole numbers that is nowhere above zero is given at the maximum elevation, not the minimum. -/
theorem C41_integer_fails (P : K → K × K × K) (hP : ∀ z, (P z).2.2 = z) (surf : K → K → Fl K) (cap : ℕ) (hc : 0 < cap) (res : K × K)
    (minZ maxZ : K) (h0 : maxZ ≤ 0) (hmiss : surf (P maxZ).1 (P maxZ).2.1 = .nan) :
    surfPoint P (intSurf surf) cap res minZ maxZ = P maxZ := by
  obtain ⟨n, hn⟩ : ∃ n, raySteps cap res (P maxZ) (P minZ) = n + 1 := ⟨_, (Nat.succ_pred_eq_of_pos (raySteps_pos hc _ _ _)).symm⟩
  have hh : hits (intSurf surf) (P maxZ) = true := by
    rw [hits_intSurf, hmiss, hP]
    simp [h0]
  unfold surfPoint
  simp only [hn, linspace, List.range_succ_eq_map, List.map_cons, Nat.cast_zero, zero_mul, add_zero, List.find?_cons, hh]

end

noncomputable section

/-- A surface of whole numbers. -/
def Surface.ofInt (s : Surface) : Surface := { s with surf := intSurf s.surf }

/-- C80: so on a surface of whole numbers that is nowhere above zero, all of the boundary, if outside the surface, is at the maximum of the
surface; documented is the minimum. -/
theorem C80_integer_fails {c : FrameCam} {R : M3} {T : V3} (h : RayCam c R T) (hh : c.horizonFov = .ok false) (num : Option ℤ)
    (l : List (ℝ × ℝ)) (hl : c.boundary num = .ok l) (hd : ∀ p ∈ l, Down c R p) (s : Surface) (res : ℝ × ℝ) (hres : s.res = some res)
    (hdt : s.dtypeOk = true) (hsh : s.shape.1 < 32767 ∧ s.shape.2 < 32767) (hi : s.interpIsEnum = true) (hm : s.minZ ≤ s.maxZ)
    (hc : s.maxZ ≤ T 2) (hs : ∀ p ∈ l, Short res (triple (c.pointAtZ R T p s.maxZ)) (triple (c.pointAtZ R T p s.minZ))) (h0 : s.maxZ ≤ 0) (hmiss : ∀ p ∈ l, s.surf (c.pointAtZ R T p s.maxZ 0) (c.pointAtZ R T p s.maxZ 1) = .nan)
    (clip : Bool) : c.worldBoundary (.surface s.ofInt) num clip = .ok (l.map fun p => c.pointAtZ R T p s.maxZ) := by
  have hti : c.testInit = .ok (R, T) := by simp [FrameCam.testInit, h.ext]
  unfold FrameCam.worldBoundary
  simp only [hti, ok_bind, hh, hl, Surface.ofInt, hres]
  rw [if_neg (by simp), if_neg (by push Not; linarith)]
  have hmx : (if ¬ clip = true then s.maxZ else min s.maxZ (T 2)) = s.maxZ := by
    split
    · rfl
    · exact min_eq_left hc
  rw [hmx]
  refine (worldSurf_ok (s := ⟨s.shape, s.dtypeOk, s.minZ, s.maxZ, some res, s.interpIsEnum, intSurf s.surf⟩) hdt hsh hi hs).trans ?_
  congr 1
  refine List.map_congr_left fun p hp => ?_
  rw [C41_integer_fails (fun z => triple (c.pointAtZ R T p z)) (fun z => (h.point (hd p hp) z).1) s.surf _
    (lt_of_lt_of_le (by norm_num) (maxRaySteps_ge _ _)) res s.minZ s.maxZ h0 (hmiss p hp)]
  ext i
  fin_cases i <;> rfl

/-- C80 (part): on a surface of whole numbers that is above zero, the boundary is that on the same surface of other numbers.  Missing: surfaces
that reach to zero or below (`C80_integer_fails`). -/
theorem C80_integer_partial {c : FrameCam} {R : M3} {T : V3} (h : RayCam c R T) (num : Option ℤ)
    (hd : ∀ l, c.boundary num = .ok l → ∀ p ∈ l, Down c R p) (s : Surface) (hm : s.minZ ≤ s.maxZ) (h0 : 0 < s.minZ)
    (clip : Bool) : c.worldBoundary (.surface s.ofInt) num clip = c.worldBoundary (.surface s) num clip := by
  have hti : c.testInit = .ok (R, T) := by simp [FrameCam.testInit, h.ext]
  unfold FrameCam.worldBoundary
  simp only [hti, ok_bind]
  cases c.horizonFov with
  | error e => simp only [error_bind]
  | ok b =>
    simp only [ok_bind]
    split
    · rfl
    · cases hb : c.boundary num with
      | error e => simp only [error_bind]
      | ok l =>
        simp only [ok_bind, Surface.ofInt]
        cases hr : s.res with
        | none => rfl
        | some res =>
          simp only
          by_cases hgt : s.minZ > T 2
          · rw [if_pos hgt]
            exact if_pos hgt
          · rw [if_neg hgt]
            refine (if_neg hgt).trans ?_
            push Not at hgt
            have key : ∀ m, s.minZ ≤ m → worldSurf c R T l ⟨s.shape, s.dtypeOk, s.minZ, s.maxZ, some res, s.interpIsEnum, intSurf s.surf⟩ res s.minZ m =
                worldSurf c R T l s res s.minZ m := by
              intro m hmm
              unfold worldSurf
              simp only
              have : ∀ p ∈ l, surfPoint (fun z => triple (c.pointAtZ R T p z)) (intSurf s.surf) (maxRaySteps s.shape.1 s.shape.2) res s.minZ m =
                  surfPoint (fun z => triple (c.pointAtZ R T p z)) s.surf (maxRaySteps s.shape.1 s.shape.2) res s.minZ m := fun p hp =>
                C41_integer_partial _ (fun z => (h.point (hd l hb p hp) z).1) s.surf _ res s.minZ _ hmm h0
              rw [List.map_congr_left fun p hp => by rw [this p hp]]
            exact key _ (by split; exacts [hm, le_min hm hgt])

end

/-- A ray beside a surface between -20 and -10: found at -10. -/
example : surfPoint (K := ℚ) (fun z => (z / 2, 0, z)) (intSurf fun _ _ => .nan) (maxRaySteps 10 10) (1, -1) (-20) (-10) = (-5, 0, -10) ∧
    surfPoint (K := ℚ) (fun z => (z / 2, 0, z)) (fun _ _ => .nan) (maxRaySteps 10 10) (1, -1) (-20) (-10) = (-10, 0, -20) := by
  decide +kernel

/-- A ray beside a surface between 10 and 20: found at 10. -/
example : surfPoint (K := ℚ) (fun z => (z / 2, 0, z)) (intSurf fun _ _ => .nan) (maxRaySteps 10 10) (1, -1) 10 20 = (5, 0, 10) := by
  decide +kernel

end Verif.Frame
