import Verif.Dem.SeesRpc

/-!
# The crop of a DEM in another CRS, and the ground that the camera sees (C106)
-/

set_option autoImplicit false

namespace Verif.Dem

open Matrix Verif.Frame Verif.Common Verif.Ortho
open Res (ok_bind error_bind)

noncomputable section

/-! ## Specification -/

/-- The camera sees the point with the location q in the world, and the elevation x. -/
def SeesPoint (c : FrameCam) (R : M3) (T : V3) (q : ℝ × ℝ) (x : ℝ) : Prop :=
  ∃ p, InIm c.imSize p ∧ SeenAt c R T ![q.1, q.2, x] p

/-! ## Theorems -/

/-- C106: the crop of the DEM keeps all ground that a camera without distortion sees, also when the DEM is in another horizontal CRS (`W`
gives the location in the world of one in the CRS of the DEM), as long as `transform_bounds` gives bounds of all that is in the bounds it
is given; the elevation in the world follows from that in the DEM (`g`), and the elevations of the DEM are in the range that is searched.
Missing: cameras with distortion (`C106_distorted_fails`) and other vertical datums (`C106_datum_fails`). -/
theorem C106_crs_partial {c : FrameCam} {R : M3} {T : V3} (h : IsPinhole c R T) (hw : 0 < c.imSize.1) (hh : 0 < c.imSize.2)
    (d : DemIn ℝ) (hb : CameraDem c d) (W : ℝ × ℝ → ℝ × ℝ) (hcrs : InCrs d W) (g : ℝ → ℝ) (hg : Monotone g)
    (hz : ∀ x y e, d.zmap x y (some e) = g e) (hr : ∀ row col x, d.val row col = some x → d.zlo ≤ g x ∧ g x ≤ d.zhi)
    (o : DemOut ℝ) (ho : initDem d = .ok o) (row col : ℕ) (hrow : row < d.h) (hcol : col < d.w) (x : ℝ) (hx : d.val row col = some x)
    (u v : ℝ) (hu : col < u ∧ u < col + 1) (hv : row < v ∧ v < row + 1) (hs : SeesPoint c R T (W (d.t.apply u v)) (g x)) :
    ∃ row' col' : ℕ, row' < o.h ∧ col' < o.w ∧ o.arr row' col' = some (d.f32 x) ∧
      ∀ a b : ℝ, o.t.apply (col' + a) (row' + b) = d.t.apply (col + a) (row + b) := by
  refine keeps_in d W hcrs g hg hz hr o ho row col hrow hcol x hx u v hu hv fun za zb pts h0 h1 h2 h3 hst => ?_
  obtain ⟨l₀, hok, -⟩ := stack_mem hst (z := za) (by simp)
  obtain ⟨hdown, rays, hrays, hbox⟩ := dem_rays h hw hh hb hok
  obtain ⟨p, hp, hseen⟩ := hs
  obtain ⟨hlt, hpt⟩ := seen_point h (hdown p hp) hseen
  rw [stack_ok hrays, Except.ok.injEq] at hst
  subst hst
  refine box_nested rays _ _ _ [g x] (by simp [h1, h2]) _ _ ?_
  have := hbox p hp (g x) hlt.le
  have g0 := congrFun hpt 0
  have g1 := congrFun hpt 1
  simp only [Matrix.cons_val_zero, Matrix.cons_val_one, Matrix.cons_val] at g0 g1
  rw [g0, g1] at this
  simpa using this

/-! ## A case of the theorem -/

/-- The DEM in a CRS with another false easting: its x coordinates are greater by `s` than those of the world. -/
def eastDem (d : DemIn ℝ) (s : ℝ) : DemIn ℝ :=
  { d with
    t := { d.t with c := d.t.c + s }
    crsEqual := false
    tb := fun b => .ok ⟨b.left + s, b.bottom, b.right + s, b.top⟩ }

theorem east_inCrs (d : DemIn ℝ) (s : ℝ) : InCrs (eastDem d s) fun p => (p.1 - s, p.2) := by
  refine .inr ⟨rfl, fun b b' h p hp => ?_⟩
  simp only [eastDem, Except.ok.injEq] at h
  subst h
  obtain ⟨h1, h2, h3, h4⟩ := hp
  exact ⟨by simp only at h1 ⊢; linarith, by simp only at h2 ⊢; linarith, h3, h4⟩

theorem east_fromBounds (t : Affine ℝ) (s : ℝ) (b : Bnds ℝ) :
    fromBounds { t with c := t.c + s } ⟨b.left + s, b.bottom, b.right + s, b.top⟩ = fromBounds t b := by
  have e : ∀ x y : ℝ, ({ t with c := t.c + s } : Affine ℝ).inv.apply (x + s) y = t.inv.apply x y := by
    intro x y
    simp only [Affine.inv, Affine.apply, Affine.det]
    congr 1 <;> ring
  unfold fromBounds
  simp only [e, add_sub_add_right_eq_sub]
  rfl

theorem east_win (d : DemIn ℝ) (s : ℝ) (hd : d.crsEqual = true) (zs : List ℝ) : winAtZs (eastDem d s) zs = winAtZs d zs := by
  unfold winAtZs demBounds
  rw [show (eastDem d s).boundary = d.boundary from rfl]
  cases stackBoundary d.boundary zs with
  | error e => simp only [error_bind]
  | ok pts =>
    simp only [ok_bind]
    cases boundsOf pts with
    | error e => simp only [error_bind]
    | ok b =>
      simp only [ok_bind, hd, if_true, show (eastDem d s).crsEqual = false from rfl, Bool.false_eq_true, if_false,
        show (eastDem d s).tb b = .ok ⟨b.left + s, b.bottom, b.right + s, b.top⟩ from rfl]
      rw [show (eastDem d s).t = { d.t with c := d.t.c + s } from rfl, east_fromBounds]
      rfl

/-- `C106_crs_partial` for the DEM under `demoCam`, in a CRS with another false easting: the pixel in column 3 is kept, where it was. -/
example : ∃ o, initDem (eastDem (stripDem demoCam 6 (-6) (fun _ => 0) true (fun _ _ e => e.getD 0)) 1000) = .ok o ∧
    ∃ row' col' : ℕ, row' < o.h ∧ col' < o.w ∧ o.arr row' col' = some 0 ∧ o.t.apply (col' + 0) (row' + 0) = (1003, 1) := by
  set d₀ := stripDem demoCam 6 (-6) (fun _ => 0) true (fun _ _ e => e.getD 0) with hd₀
  set d := eastDem d₀ 1000 with hd
  have w1 : winAtZs d [-6, 5] = .ok ⟨0, 0, (6 : ℕ), 2⟩ :=
    (east_win d₀ 1000 rfl _).trans
      (demo_win _ _ _ _ (-6) (by simp) (by simp; norm_num) 6 (by norm_num) le_rfl (by norm_num) (by norm_num))
  have w2 : winAtZs d (demZs d ⟨0, 0, (6 : ℕ), 2⟩) = .ok ⟨0, 0, (4 : ℕ), 2⟩ := by
    have : demZs d ⟨0, 0, (6 : ℕ), 2⟩ = [0, 0] := rfl
    rw [this]
    exact (east_win d₀ 1000 rfl _).trans
      (demo_win _ _ _ _ 0 (by simp) (by simp) 4 (by norm_num) (by norm_num) (by norm_num) (by norm_num))
  have ho : initDem d = .ok (cropDem d ⟨0, 0, (6 : ℕ), 2⟩ ⟨0, 0, (4 : ℕ), 2⟩) := by
    unfold initDem
    rw [show d.zlo = -6 from rfl, show d.zhi = 5 from rfl, w1, ok_bind, w2, ok_bind]
    simp [interI, ok_bind]
  refine ⟨_, ho, ?_⟩
  have hval : ∀ row col, d.val row col = some 0 := fun _ _ => rfl
  obtain ⟨row', col', h1, h2, h3, h4⟩ := C106_crs_partial isPinhole_demoCam (by norm_num [show demoCam.imSize = (4, 3) from rfl])
    (by norm_num [show demoCam.imSize = (4, 3) from rfl]) d (fun _ => rfl) _ (east_inCrs d₀ 1000) id monotone_id (fun _ _ _ => rfl)
    (fun row col x hx => by
      rw [hval, Option.some.injEq] at hx
      subst hx
      exact ⟨by show (-6 : ℝ) ≤ 0; norm_num, by show (0 : ℝ) ≤ 5; norm_num⟩) _ ho 0 3 (by show 0 < 2; norm_num) (by show 3 < 6; norm_num) 0 rfl
    (7 / 2) (1 / 2) (by norm_num) (by norm_num) (by
      have : SeesGround demoCam (extrinsicR (0, 0, 0)) ![0, 0, 10] d₀ (7 / 2) (1 / 2) 0 := nadir_sees (by norm_num) (by
        rw [show demoCam.toPix = dotK (kMat (4, 4) (3 / 2, 1)) from rfl, dotK_kMat]
        simp only [hd₀, stripDem, Affine.apply, InIm, show demoCam.imSize = (4, 3) from rfl]
        norm_num
        simp
        norm_num)
      obtain ⟨p, hp, hs⟩ := this
      refine ⟨p, hp, ?_⟩
      have e : (((d.t.apply (7 / 2) (1 / 2)).1 - 1000, (d.t.apply (7 / 2) (1 / 2)).2) : ℝ × ℝ) = d₀.t.apply (7 / 2) (1 / 2) := by
        simp [hd, eastDem, hd₀, stripDem, Affine.apply]
      simp only [id] at *
      rw [Prod.ext_iff] at e
      simp only at e
      rw [e.1, e.2]
      exact hs)
  refine ⟨row', col', h1, h2, h3, (h4 0 0).trans ?_⟩
  simp [hd, eastDem, hd₀, stripDem, Affine.apply]
  norm_num

end

end Verif.Dem
