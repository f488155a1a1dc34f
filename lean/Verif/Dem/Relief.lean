import Verif.Dem.Footprint

/-!
# The polygon of the boundary on ground that is not level (C107)
-/

set_option autoImplicit false

namespace Verif.Dem

open Matrix Real Verif.Frame
open Res (ok_bind error_bind)

noncomputable section

/-! ## Specification -/

/-- The point is on the surface, and the surface is below the line from the camera at `T` to the point. -/
def InSight (s : Surface) (T X : V3) : Prop :=
  s.surf (X 0) (X 1) = .val (X 2) ∧
    ∀ t : ℝ, 0 < t → t < 1 → ∃ z, s.surf (T 0 + t * (X 0 - T 0)) (T 1 + t * (X 1 - T 1)) = .val z ∧ z < T 2 + t * (X 2 - T 2)

/-- What is seen in the image, of all that has elevations between `lo` and `hi`. -/
def SeenBetween (c : FrameCam) (R : M3) (T : V3) (lo hi : ℝ) : Set V3 :=
  {X | lo ≤ X 2 ∧ X 2 ≤ hi ∧ ∃ p, InIm c.imSize p ∧ SeenAt c R T X p}

/-! ## Lemmas -/

theorem between_convex {c : FrameCam} {R : M3} {T : V3} (h : IsPinhole c R T) (lo hi : ℝ) : Convex ℝ (SeenBetween c R T lo hi) := by
  have e : SeenBetween c R T lo hi = {X : V3 | lo ≤ X 2 ∧ X 2 ≤ hi} ∩ ({X : V3 | 0 < FrameCam.camCoords R T X 2 ∧
      (if false then 0 < 1 * (c.projectPt R T X).1 + 0 * (c.projectPt R T X).2 + 0
        else 0 ≤ 1 * (c.projectPt R T X).1 + 0 * (c.projectPt R T X).2 + 0)} ∩ ({X : V3 | 0 < FrameCam.camCoords R T X 2 ∧
      (if false then 0 < (-1) * (c.projectPt R T X).1 + 0 * (c.projectPt R T X).2 + ((c.imSize.1 : ℝ) - 1)
        else 0 ≤ (-1) * (c.projectPt R T X).1 + 0 * (c.projectPt R T X).2 + ((c.imSize.1 : ℝ) - 1))} ∩
      ({X : V3 | 0 < FrameCam.camCoords R T X 2 ∧
      (if false then 0 < 0 * (c.projectPt R T X).1 + 1 * (c.projectPt R T X).2 + 0
        else 0 ≤ 0 * (c.projectPt R T X).1 + 1 * (c.projectPt R T X).2 + 0)} ∩ {X : V3 | 0 < FrameCam.camCoords R T X 2 ∧
      (if false then 0 < 0 * (c.projectPt R T X).1 + (-1) * (c.projectPt R T X).2 + ((c.imSize.2 : ℝ) - 1)
        else 0 ≤ 0 * (c.projectPt R T X).1 + (-1) * (c.projectPt R T X).2 + ((c.imSize.2 : ℝ) - 1))}))) := by
    ext X
    simp only [SeenBetween, InIm, SeenAt, Set.mem_ofPred_eq, Set.mem_inter_iff, Bool.false_eq_true, if_false]
    constructor
    · rintro ⟨h0, h0', p, ⟨h1, h2, h3, h4⟩, rfl, h5⟩
      exact ⟨⟨h0, h0'⟩, ⟨h5, by linarith⟩, ⟨h5, by linarith⟩, ⟨h5, by linarith⟩, ⟨h5, by linarith⟩⟩
    · rintro ⟨⟨h0, h0'⟩, ⟨h5, h1⟩, ⟨-, h2⟩, ⟨-, h3⟩, ⟨-, h4⟩⟩
      exact ⟨h0, h0', _, ⟨by linarith, by linarith, by linarith, by linarith⟩, rfl, h5⟩
  have slab : Convex ℝ {X : V3 | lo ≤ X 2 ∧ X 2 ≤ hi} := by
    intro X hX Y hY a b ha hb hab
    simp only [Set.mem_ofPred_eq, Pi.add_apply, Pi.smul_apply, smul_eq_mul] at *
    have hb' : b = 1 - a := by linarith
    subst hb'
    constructor <;> nlinarith
  rw [e]
  exact slab.inter ((half_convex h _ _ _ false).inter ((half_convex h _ _ _ false).inter
    ((half_convex h _ _ _ false).inter (half_convex h _ _ _ false))))

/-! ## Theorems -/

/-- C107: on ground that is not level, all ground that the camera sees is between the polygons of the boundary at the extremes of the
elevations: the hull of both is what is seen of all between the extremes.  Missing: as for `C107_level_partial`; and the polygon of the
boundary on the surface itself, which does not have all ground that is seen (`C107_relief_fails`). -/
theorem C107_range_partial {c : FrameCam} {R : M3} {T : V3} (h : IsPinhole c R T) (hw : 0 < c.imSize.1) (hh : 0 < c.imSize.2)
    (hf : c.horizonFov = .ok false) (num : Option ℤ) (l : List (ℝ × ℝ)) (hl : pixelBoundary c.imSize num = .ok l)
    (hc : HasCorners c.imSize l) (lo hi : ℝ) (hlo : lo ≤ hi) (hz : hi < T 2) (clip : Bool) :
    ∃ Xs Ys, c.worldBoundary (.scalar lo) num clip = .ok Xs ∧ c.worldBoundary (.scalar hi) num clip = .ok Ys ∧
      convexHull ℝ {X | X ∈ Xs ∨ X ∈ Ys} = SeenBetween c R T lo hi := by
  have hdown : ∀ p, InIm c.imSize p → Down c R p := fun p hp => C39_rays h hf p.1 p.2 hp.1 hp.2.1 hp.2.2.1 hp.2.2.2
  obtain ⟨Xs, e1, hX⟩ := C107_level_partial h hw hh hf num l hl hc lo (hlo.trans_lt hz) clip
  obtain ⟨Ys, e2, hY⟩ := C107_level_partial h hw hh hf num l hl hc hi hz clip
  refine ⟨Xs, Ys, e1, e2, Set.Subset.antisymm ?_ ?_⟩
  · refine convexHull_min ?_ (between_convex h lo hi)
    rintro X (hX' | hY')
    · have : X ∈ SeenLevel c R T lo := hX ▸ subset_convexHull ℝ _ hX'
      obtain ⟨h1, h2⟩ := this
      exact ⟨h1.ge, h1.le.trans hlo, h2⟩
    · have : X ∈ SeenLevel c R T hi := hY ▸ subset_convexHull ℝ _ hY'
      obtain ⟨h1, h2⟩ := this
      exact ⟨hlo.trans h1.ge, h1.le, h2⟩
  · rintro X ⟨h1, h2, p, hp, hs⟩
    obtain ⟨-, e⟩ := seen_point h (hdown p hp) hs
    have at' : ∀ z, z < T 2 → c.pointAtZ R T p z ∈ SeenLevel c R T z := fun z hz => by
      obtain ⟨q1, q2, -⟩ := (RayCam.of_pinhole h).point (hdown p hp) z
      exact ⟨q1, p, hp, q2 hz⟩
    have a1 : c.pointAtZ R T p lo ∈ convexHull ℝ {X | X ∈ Xs ∨ X ∈ Ys} :=
      convexHull_mono (fun _ h => .inl h) (hX ▸ at' lo (hlo.trans_lt hz))
    have a2 : c.pointAtZ R T p hi ∈ convexHull ℝ {X | X ∈ Xs ∨ X ∈ Ys} :=
      convexHull_mono (fun _ h => .inr h) (hY ▸ at' hi hz)
    rw [← e]
    rcases hlo.eq_or_lt with rfl | hlt
    · rw [le_antisymm h2 h1]
      exact a1
    · refine (convex_convexHull ℝ _).segment_subset a1 a2 ⟨(hi - X 2) / (hi - lo), (X 2 - lo) / (hi - lo), ?_, ?_, ?_, ?_⟩
      · exact div_nonneg (by linarith) (by linarith)
      · exact div_nonneg (by linarith) (by linarith)
      · rw [← add_div, div_eq_one_iff_eq (by linarith)]; ring
      · funext i
        have n1 : hi - lo ≠ 0 := by linarith
        have n2 : (R *ᵥ c.toCam p) 2 ≠ 0 := (hdown p hp).ne
        simp only [FrameCam.pointAtZ, Pi.add_apply, Pi.smul_apply, smul_eq_mul]
        field_simp
        ring

/-! ## Where ground is lost -/

theorem demo_point (p : ℝ × ℝ) (z : ℝ) : demoCam.pointAtZ (extrinsicR (0, 0, 0)) ![0, 0, 10] p z =
    ![(p.1 - 3 / 2) / 4 * (10 - z), -((p.2 - 1) / 4) * (10 - z), z] := by
  unfold FrameCam.pointAtZ
  rw [demoCam_ray]
  have e : (z - 10) / (-1 : ℝ) = 10 - z := by ring
  funext i
  fin_cases i <;> simp [e]

/-- A valley, 5 deep, around the points (x, m x) for positive x, with a width of `2 ε x`. -/
def valley (m ε : ℝ) : Surface where
  shape := (100, 100)
  dtypeOk := true
  minZ := 0
  maxZ := 5
  res := some (1, -1)
  interpIsEnum := true
  surf x y := if 0 < x ∧ |y - m * x| < ε * x then .val 0 else .val 5

/-- C107 does not hold on ground that is not level, whatever the number of points is: a valley at the side of the image, between the rays of
two points of the boundary, is seen farther out than the ground around it.  Ground in the valley, that is in sight of the camera (10 above
the origin, looking down on a plateau at 5), is twice as far in x as the polygon reaches. -/
theorem C107_relief_fails (num : Option ℤ) (l : List (ℝ × ℝ)) (hl : pixelBoundary demoCam.imSize num = .ok l) (clip : Bool) :
    ∃ (s : Surface) (Xs : List V3) (X : V3), (∀ x y, s.surf x y = .val s.minZ ∨ s.surf x y = .val s.maxZ) ∧ s.maxZ < 10 ∧
      demoCam.worldBoundary (.surface s) num clip = .ok Xs ∧ InSight s ![0, 0, 10] X ∧
      (∃ p, InIm demoCam.imSize p ∧ SeenAt demoCam (extrinsicR (0, 0, 0)) ![0, 0, 10] X p) ∧ 0 < X 0 ∧
      ∀ Y ∈ convexHull ℝ {Y | Y ∈ Xs}, 2 * Y 0 ≤ X 0 := by
  have him : demoCam.imSize = (4, 3) := rfl
  have hb := C61_pinhole_boundary isPinhole_demoCam (by decide) (by decide) num l hl
  have hin : ∀ p ∈ l, InIm demoCam.imSize p := fun p hp => (C42_on_border demoCam.imSize (by decide) (by decide) num l hl p hp).1
  -- a direction between those of the boundary
  have hfin : {m : ℝ | ∃ p ∈ l, m = -(p.2 - 1) / (p.1 - 3 / 2)}.Finite := by
    refine ((List.finite_toSet l).image fun p => -(p.2 - 1) / (p.1 - 3 / 2)).subset ?_
    rintro m ⟨p, hp, rfl⟩
    exact ⟨p, hp, rfl⟩
  obtain ⟨m, ⟨m1, m2⟩, hm⟩ := (Set.Ioo_infinite (show (-2 / 3 : ℝ) < 2 / 3 by norm_num)).exists_notMem_finite hfin
  obtain ⟨ε, hε, hball⟩ := Metric.isOpen_iff.1 hfin.isClosed.isOpen_compl m hm
  have hoff : ∀ p ∈ l, 3 / 2 < p.1 → ε * (p.1 - 3 / 2) ≤ |-(p.2 - 1) - m * (p.1 - 3 / 2)| := by
    intro p hp h0
    have h1 : 0 < p.1 - 3 / 2 := by linarith
    have : ¬ dist (-(p.2 - 1) / (p.1 - 3 / 2)) m < ε := fun h => hball (Metric.mem_ball.2 h) ⟨p, hp, rfl⟩
    rw [not_lt, Real.dist_eq] at this
    have e : -(p.2 - 1) - m * (p.1 - 3 / 2) = (-(p.2 - 1) / (p.1 - 3 / 2) - m) * (p.1 - 3 / 2) := by
      rw [sub_mul, div_mul_cancel₀ _ h1.ne']
    rw [e, abs_mul, abs_of_pos h1]
    exact mul_le_mul_of_nonneg_right this h1.le
  have hz : (if ¬ clip = true then (valley m ε).maxZ else min (valley m ε).maxZ ((![0, 0, 10] : V3) 2)) = 5 := by
    simp only [valley]
    rw [min_eq_left (by simp; norm_num), ite_self]
  have hbd := worldBoundary_eq (RayCam.of_pinhole isPinhole_demoCam).ext demoCam_horizon num l hb (.surface (valley m ε)) clip
  simp only [show (valley m ε).res = some (1, -1) from rfl] at hbd
  rw [if_neg (by simp [valley]), hz, worldSurf_ok rfl ⟨by simp [valley], by simp [valley]⟩ rfl] at hbd
  · -- points of the boundary are on the plateau
    have hp5 : ∀ p ∈ l, surfPoint (fun z => triple (demoCam.pointAtZ (extrinsicR (0, 0, 0)) ![0, 0, 10] p z)) (valley m ε).surf
        (maxRaySteps (valley m ε).shape.1 (valley m ε).shape.2) (1, -1) (valley m ε).minZ 5 =
        triple (demoCam.pointAtZ (extrinsicR (0, 0, 0)) ![0, 0, 10] p 5) := by
      intro p hp
      obtain ⟨k, -, e, -, -, hj, -⟩ := C41_first (fun z => triple (demoCam.pointAtZ (extrinsicR (0, 0, 0)) ![0, 0, 10] p z)) (valley m ε).surf
        (maxRaySteps (valley m ε).shape.1 (valley m ε).shape.2) (by have := maxRaySteps_ge (valley m ε).shape.1 (valley m ε).shape.2; omega)
        (1, -1) (valley m ε).minZ 5 (by simp [valley])
      rw [e]
      rcases Nat.eq_zero_or_pos k with rfl | hk
      · simp [sampleZ]
      · refine absurd ?_ (hj 0 hk)
        refine ⟨5, ?_, ?_⟩
        · simp only [sampleZ, demo_point, triple, valley]
          rw [if_neg]
          simp
          intro h0
          have := hoff p hp (by linarith)
          have e : -((p.2 - 1) / 4 * (10 - 5)) - m * ((p.1 - 3 / 2) / 4 * (10 - 5)) = (-(p.2 - 1) - m * (p.1 - 3 / 2)) * (5 / 4) := by ring
          rw [e, abs_mul, abs_of_pos (show (0 : ℝ) < 5 / 4 by norm_num)]
          linarith
        · simp [sampleZ, demo_point, triple]
    refine ⟨valley m ε, _, ![15 / 4, 15 / 4 * m, 0], ?_, by norm_num [valley], hbd, ⟨?_, ?_⟩, ?_, by norm_num, ?_⟩
    · intro x y
      simp only [valley]
      split_ifs
      · exact .inl rfl
      · exact .inr rfl
    · simp only [valley]
      rw [if_pos]
      · simp
      · refine ⟨by simp, ?_⟩
        simp
        rw [show 15 / 4 * m - m * (15 / 4) = 0 by ring, abs_zero]
        positivity
    · intro t t0 t1
      refine ⟨0, ?_, by simp; linarith⟩
      simp only [valley]
      rw [if_pos]
      refine ⟨by simp; linarith, ?_⟩
      simp
      rw [show t * (15 / 4 * m) - m * (t * (15 / 4)) = 0 by ring, abs_zero]
      positivity
    · have hq : InIm demoCam.imSize (3, 1 - 3 / 2 * m) := by
        rw [him]
        refine ⟨?_, ?_, ?_, ?_⟩ <;> norm_num <;> linarith
      obtain ⟨-, h2, -⟩ := (RayCam.of_pinhole isPinhole_demoCam).point (p := (3, 1 - 3 / 2 * m)) (by unfold Down; rw [demoCam_ray]; simp) 0
      refine ⟨_, hq, ?_⟩
      have h2 := h2 (by simp)
      rw [demo_point] at h2
      convert h2 using 1
      funext i
      fin_cases i <;> simp <;> ring
    · intro Y hY
      have cv : Convex ℝ {Y : V3 | Y 0 ≤ 15 / 8} := by
        intro X hX Y hY a b ha hb hab
        simp only [Set.mem_ofPred_eq, Pi.add_apply, Pi.smul_apply, smul_eq_mul] at *
        have hb' : b = 1 - a := by linarith
        subst hb'
        nlinarith
      have : Y ∈ {Y : V3 | Y 0 ≤ 15 / 8} := by
        refine convexHull_min ?_ cv hY
        intro Z hZ
        obtain ⟨p, hp, rfl⟩ := List.mem_map.1 hZ
        simp only [Set.mem_ofPred_eq]
        rw [hp5 p hp, demo_point]
        simp only [triple]
        have := (hin p hp).2.1
        rw [him] at this
        norm_num at this
        simp
        linarith
      simp only [Set.mem_ofPred_eq] at this
      simp
      linarith
  · intro p hp
    rw [demo_point, demo_point]
    obtain ⟨h1, h2, h3, h4⟩ := hin p hp
    rw [him] at h2 h4
    norm_num at h2 h4
    simp only [Short, triple, valley]
    simp
    constructor <;> rw [abs_le] <;> constructor <;> linarith

/-- `C107_relief_fails` with the 400 points of the mask of the DEM. -/
example : ∃ (s : Surface) (Xs : List V3) (X : V3), demoCam.worldBoundary (.surface s) (some 400) true = .ok Xs ∧
    InSight s ![0, 0, 10] X ∧ X ∉ convexHull ℝ {Y | Y ∈ Xs} := by
  obtain ⟨l, hl⟩ : ∃ l, pixelBoundary (K := ℝ) (4, 3) (some 400) = .ok l := by
    unfold pixelBoundary
    simp only [Option.getD_some, if_neg (show ¬ (400 : ℤ) = 0 by norm_num)]
    unfold rectBoundary
    have p1 : 0 ≤ sidePts 400 |(((4 : ℕ) : ℝ) - 1)| (2 * (((4 : ℕ) : ℝ) - 1 + (((3 : ℕ) : ℝ) - 1))) := by
      refine (rint_pos ?_).le; rw [abs_of_pos (by norm_num)]; norm_num
    have p2 : 0 ≤ sidePts 400 |(((3 : ℕ) : ℝ) - 1)| (2 * (((4 : ℕ) : ℝ) - 1 + (((3 : ℕ) : ℝ) - 1))) := by
      refine (rint_pos ?_).le; rw [abs_of_pos (by norm_num)]; norm_num
    simp only
    rw [if_neg (by norm_num)]
    obtain ⟨a, ha⟩ := linspace_ok (a := ((0 : ℝ), (0 : ℝ))) (b := (((4 : ℕ) : ℝ) - 1, 0)) p1
    obtain ⟨b, hb⟩ := linspace_ok (a := (((4 : ℕ) : ℝ) - 1, (0 : ℝ))) (b := (((4 : ℕ) : ℝ) - 1, ((3 : ℕ) : ℝ) - 1)) p2
    obtain ⟨c, hc⟩ := linspace_ok (a := (((4 : ℕ) : ℝ) - 1, ((3 : ℕ) : ℝ) - 1)) (b := (0, ((3 : ℕ) : ℝ) - 1)) p1
    obtain ⟨d, hd⟩ := linspace_ok (a := ((0 : ℝ), ((3 : ℕ) : ℝ) - 1)) (b := (0, 0)) p2
    rw [ha, hb, hc, hd]
    exact ⟨_, rfl⟩
  obtain ⟨s, Xs, X, -, -, h1, h2, -, h3, h4⟩ := C107_relief_fails (some 400) l hl true
  refine ⟨s, Xs, X, h1, h2, fun h => ?_⟩
  have := h4 X h
  linarith

/-- Ground with elevations from 2 to 5, with the default boundary. -/
example : ∃ Xs Ys, demoCam.worldBoundary (.scalar 2) none true = .ok Xs ∧ demoCam.worldBoundary (.scalar 5) none true = .ok Ys ∧
    convexHull ℝ {X | X ∈ Xs ∨ X ∈ Ys} = SeenBetween demoCam (extrinsicR (0, 0, 0)) ![0, 0, 10] 2 5 := by
  obtain ⟨l, hl, -, -⟩ := C42_default (K := ℝ) (4, 3) none (.inl rfl)
  exact C107_range_partial isPinhole_demoCam (by decide) (by decide) demoCam_horizon none l hl
    (C107_corners (4, 3) none l hl (.inl rfl)) 2 5 (by norm_num) (by simp; norm_num) true

end

end Verif.Dem
