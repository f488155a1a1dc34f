import Verif.Dem.SeesRpc

/-!
# The crop of the DEM and the ground that a GCP camera sees (C106)
-/

set_option autoImplicit false

namespace Verif.Dem

open Verif.Frame (InIm pixelBoundary boundary8)
open Verif.RpcCam Verif.Common Verif.Ortho
open Res (ok_bind error_bind)

noncomputable section

/-! ## Specification -/

/-- `DemIn.boundary` is that of the GCP camera: `self._camera.world_boundary(z)` with its default number of points,
orthority/ortho.py:158. -/
def GcpDem (inv : ℝ × ℝ → ℝ → ℝ × ℝ) (im : ℕ × ℕ) (d : DemIn ℝ) : Prop :=
  ∀ z (Xs : List (ℝ × ℝ × ℝ)), gcpBoundary inv im (.scalar z) none = .ok (Xs.map flPt) →
    d.boundary z = .ok (Xs.map fun X => (X.1, X.2.1))

/-- `world_to_pixel` puts the point with the location q in the world, and the elevation x, in the image. -/
def GcpSeesAt (fwd : ℝ × ℝ × ℝ → ℝ × ℝ) (im : ℕ × ℕ) (q : ℝ × ℝ) (x : ℝ) : Prop := InIm im (gcpWorldToPixel fwd (q.1, q.2, x))

/-- GDAL's transform from pixels finds all points that the camera sees, at the heights from `lo` to `hi`. -/
def GcpFinds (fwd : ℝ × ℝ × ℝ → ℝ × ℝ) (inv : ℝ × ℝ → ℝ → ℝ × ℝ) (im : ℕ × ℕ) (lo hi : ℝ) : Prop :=
  ∀ x y z, lo ≤ z → z ≤ hi → InIm im (gcpWorldToPixel fwd (x, y, z)) → inv (fwd (x, y, z)) z = (x, y)

/-! ## Lemmas -/

theorem gcp_boundary (inv : ℝ × ℝ → ℝ → ℝ × ℝ) (im : ℕ × ℕ) (z : ℝ) : gcpBoundary inv im (.scalar z) none =
    .ok (((boundary8 im).map fun p => ((inv (p.1 + 1 / 2, p.2 + 1 / 2) z).1, (inv (p.1 + 1 / 2, p.2 + 1 / 2) z).2, z)).map flPt) := by
  unfold gcpBoundary baseBoundary
  rw [default_boundary, ok_bind]
  simp only
  rw [show gcpPixelToWorldZ inv = pixelToWorldZ inv ((none : Option Warps).map Prod.fst) from rfl,
    scalar_eq inv none _ z fun p _ => rfl, List.map_map]
  rfl

/-! ## Theorems -/

/-- C106: the crop of the DEM keeps all ground that a GCP camera sees, in any horizontal CRS, when the coordinates of the ground do not
turn along rows, columns and rays of the image, and GDAL's transforms are inverse; with the conditions on the elevations and on
`transform_bounds` of `C106_rpc_crs_partial`.  Missing: models that turn (`C106_gcp_fails`), and other vertical datums. -/
theorem C106_gcp_partial (fwd : ℝ × ℝ × ℝ → ℝ × ℝ) (inv : ℝ × ℝ → ℝ → ℝ × ℝ) (im : ℕ × ℕ) (d : DemIn ℝ) (hb : GcpDem inv im d)
    (W : ℝ × ℝ → ℝ × ℝ) (hcrs : InCrs d W) (g : ℝ → ℝ) (hg : Monotone g)
    (hz : ∀ x y e, d.zmap x y (some e) = g e) (hr : ∀ row col x, d.val row col = some x → d.zlo ≤ g x ∧ g x ≤ d.zhi)
    (hall : GcpFinds fwd inv im d.zlo d.zhi)
    (hx' : SteadyGround im d.zlo d.zhi fun p z => (inv (p.1 + 1 / 2, p.2 + 1 / 2) z).1)
    (hy' : SteadyGround im d.zlo d.zhi fun p z => (inv (p.1 + 1 / 2, p.2 + 1 / 2) z).2)
    (o : DemOut ℝ) (ho : initDem d = .ok o) (row col : ℕ) (hrow : row < d.h) (hcol : col < d.w) (x : ℝ)
    (hx : d.val row col = some x) (u v : ℝ) (hu : col < u ∧ u < col + 1) (hv : row < v ∧ v < row + 1)
    (hs : GcpSeesAt fwd im (W (d.t.apply u v)) (g x)) :
    ∃ row' col' : ℕ, row' < o.h ∧ col' < o.w ∧ o.arr row' col' = some (d.f32 x) ∧
      ∀ a b : ℝ, o.t.apply (col' + a) (row' + b) = d.t.apply (col + a) (row + b) := by
  refine keeps_in d W hcrs g hg hz hr o ho row col hrow hcol x hx u v hu hv fun za zb pts h0 h1 h2 h3 hst => ?_
  have hp : InIm im (gcpWorldToPixel fwd ((W (d.t.apply u v)).1, (W (d.t.apply u v)).2, g x)) := hs
  have hf := hall _ _ _ (hr _ _ _ hx).1 (hr _ _ _ hx).2 hp
  generalize hpq : gcpWorldToPixel fwd ((W (d.t.apply u v)).1, (W (d.t.apply u v)).2, g x) = p at hp
  have hfw : fwd ((W (d.t.apply u v)).1, (W (d.t.apply u v)).2, g x) = (p.1 + 1 / 2, p.2 + 1 / 2) := by
    rw [← hpq]
    simp [gcpWorldToPixel]
  rw [hfw] at hf
  have mem : ∀ q ∈ boundary8 im, ∀ z : ℝ, (z = za ∨ z = zb) →
      ((inv (q.1 + 1 / 2, q.2 + 1 / 2) z).1, (inv (q.1 + 1 / 2, q.2 + 1 / 2) z).2) ∈ pts := by
    intro q hq z hz'
    have hzm : z ∈ [za, zb] := by rcases hz' with rfl | rfl <;> simp
    obtain ⟨l, hl, hsub⟩ := stack_mem hst hzm
    have hl' := hb z _ (gcp_boundary inv im z)
    rw [hl, Except.ok.injEq] at hl'
    refine hsub _ ?_
    rw [hl', List.map_map]
    exact List.mem_map.2 ⟨q, hq, rfl⟩
  have c1 := congrArg Prod.fst hf
  have c2 := congrArg Prod.snd hf
  simp only at c1 c2
  rw [← c1, ← c2]
  refine ⟨?_, ?_, ?_, ?_⟩
  · obtain ⟨q, hq, z, hz', k⟩ := hx'.low hp h0 h1 h2 h3
    exact ⟨_, mem q hq z hz', k⟩
  · obtain ⟨q, hq, z, hz', k⟩ := hx'.neg.low hp h0 h1 h2 h3
    exact ⟨_, mem q hq z hz', neg_le_neg_iff.1 k⟩
  · obtain ⟨q, hq, z, hz', k⟩ := hy'.low hp h0 h1 h2 h3
    exact ⟨_, mem q hq z hz', k⟩
  · obtain ⟨q, hq, z, hz', k⟩ := hy'.neg.low hp h0 h1 h2 h3
    exact ⟨_, mem q hq z hz', neg_le_neg_iff.1 k⟩

theorem steady_affine (a b : ℝ) (lo hi : ℝ) : Steady (fun t => a * t + b) lo hi := by
  rcases le_total 0 a with h | h
  · exact .inl fun x _ y _ hxy => by simp only; nlinarith
  · exact .inr fun x _ y _ hxy => by simp only; nlinarith

/-- C106: so it keeps all ground that a GCP camera sees when GDAL's transform is an affine one, as for three to five GCPs, and regular. -/
theorem C106_gcp_affine_partial (T : Affine ℝ) (hT : T.a * T.e - T.b * T.d ≠ 0) (fwd : ℝ × ℝ × ℝ → ℝ × ℝ) (inv : ℝ × ℝ → ℝ → ℝ × ℝ)
    (hinv : ∀ q z, inv q z = T.apply q.1 q.2) (hfwd : ∀ q z, fwd ((T.apply q.1 q.2).1, (T.apply q.1 q.2).2, z) = q)
    (im : ℕ × ℕ) (d : DemIn ℝ) (hb : GcpDem inv im d)
    (W : ℝ × ℝ → ℝ × ℝ) (hcrs : InCrs d W) (g : ℝ → ℝ) (hg : Monotone g)
    (hz : ∀ x y e, d.zmap x y (some e) = g e) (hr : ∀ row col x, d.val row col = some x → d.zlo ≤ g x ∧ g x ≤ d.zhi)
    (o : DemOut ℝ) (ho : initDem d = .ok o) (row col : ℕ) (hrow : row < d.h) (hcol : col < d.w) (x : ℝ)
    (hx : d.val row col = some x) (u v : ℝ) (hu : col < u ∧ u < col + 1) (hv : row < v ∧ v < row + 1)
    (hs : GcpSeesAt fwd im (W (d.t.apply u v)) (g x)) :
    ∃ row' col' : ℕ, row' < o.h ∧ col' < o.w ∧ o.arr row' col' = some (d.f32 x) ∧
      ∀ a b : ℝ, o.t.apply (col' + a) (row' + b) = d.t.apply (col + a) (row + b) := by
  refine C106_gcp_partial fwd inv im d hb W hcrs g hg hz hr ?_ ?_ ?_ o ho row col hrow hcol x hx u v hu hv hs
  · intro x y z _ _ _
    -- the pixel of the point
    set D := T.a * T.e - T.b * T.d with hD
    have hq : T.apply ((T.e * (x - T.c) - T.b * (y - T.f)) / D) ((T.a * (y - T.f) - T.d * (x - T.c)) / D) = (x, y) := by
      refine Prod.ext ?_ ?_ <;> simp only [Affine.apply] <;> field_simp <;> rw [hD] <;> ring
    have := hfwd ((T.e * (x - T.c) - T.b * (y - T.f)) / D, (T.a * (y - T.f) - T.d * (x - T.c)) / D) z
    simp only [hq] at this
    rw [this, hinv]
    exact hq
  · simp only [hinv, Affine.apply]
    refine ⟨fun i z _ _ _ _ => ?_, fun j z _ _ _ _ => ?_, fun p _ => ?_⟩
    · convert steady_affine T.a (T.a * (1 / 2) + T.b * (i + 1 / 2) + T.c) _ _ using 2; ring
    · convert steady_affine T.b (T.a * (j + 1 / 2) + T.b * (1 / 2) + T.c) _ _ using 2; ring
    · exact .inl fun _ _ _ _ _ => le_rfl
  · simp only [hinv, Affine.apply]
    refine ⟨fun i z _ _ _ _ => ?_, fun j z _ _ _ _ => ?_, fun p _ => ?_⟩
    · convert steady_affine T.d (T.d * (1 / 2) + T.e * (i + 1 / 2) + T.f) _ _ using 2; ring
    · convert steady_affine T.e (T.d * (j + 1 / 2) + T.e * (1 / 2) + T.f) _ _ using 2; ring
    · exact .inl fun _ _ _ _ _ => le_rfl

/-! ## Where the crop loses ground -/

/-- A transform of order two, from pixels to the world. -/
def humpInv (b : ℝ) : ℝ × ℝ → ℝ → ℝ × ℝ := fun q _ => (q.1 - 1 / 2, q.2 - 1 / 2 - 4 * b * (q.1 - 1 / 2) * (q.1 - 1 / 2 - 1))

/-- Its inverse, of order two also. -/
def humpFwd (b : ℝ) : ℝ × ℝ × ℝ → ℝ × ℝ := fun p => (p.1 + 1 / 2, p.2.1 + 4 * b * p.1 * (p.1 - 1) + 1 / 2)

/-- A level DEM with 1 x 1 pixels around the ground that the camera with a 3 x 3 image sees in its first two columns. -/
def humpDem (b : ℕ) (zlo zhi m : ℝ) : DemIn ℝ where
  t := ⟨1, 0, 0, 0, -1, b + 3⟩
  w := 2
  h := 9 * b + 3
  val _ _ := some m
  crsEqual := true
  tb := .ok
  boundary _ := .ok ((boundary8 (3, 3)).map fun p => (p.1, p.2 - 4 * b * p.1 * (p.1 - 1)))
  zlo := zlo
  zhi := zhi
  zmap _ _ e := e.getD 0
  f32 x := x

theorem hump_dem (b : ℕ) (zlo zhi m : ℝ) : GcpDem (humpInv b) (3, 3) (humpDem b zlo zhi m) := by
  intro z Xs h
  rw [gcp_boundary, Except.ok.injEq] at h
  have inj : Function.Injective flPt := by
    intro X Y hXY
    simp only [flPt, Prod.mk.injEq, Fl.val.injEq] at hXY
    exact Prod.ext hXY.1 (Prod.ext hXY.2.1 hXY.2.2)
  rw [← inj.list_map h, List.map_map]
  simp only [humpDem]
  refine congrArg Except.ok (List.map_congr_left fun p _ => ?_)
  simp only [Function.comp, humpInv]
  refine Prod.ext ?_ ?_ <;> simp

theorem hump_win (b : ℕ) (zlo zhi m za zb : ℝ) : winAtZs (humpDem b zlo zhi m) [za, zb] = .ok ⟨0, b + 1, 2, 8 * b + 2⟩ := by
  have hb0 : (0 : ℝ) ≤ b := Nat.cast_nonneg b
  have hd : demBounds (humpDem b zlo zhi m) [za, zb] = .ok ⟨0, -(8 * b), 2, 2⟩ := by
    unfold demBounds stackBoundary stackBoundary stackBoundary
    have hbd : ∀ z, (humpDem b zlo zhi m).boundary z = .ok ((boundary8 (3, 3)).map fun p => (p.1, p.2 - 4 * b * p.1 * (p.1 - 1))) :=
      fun _ => rfl
    rw [hbd za, hbd zb]
    simp only [ok_bind, List.append_nil]
    simp only [boundary8, List.map_cons, List.map_nil, List.cons_append, List.nil_append, boundsOf, ok_bind]
    rw [show (humpDem b zlo zhi m).crsEqual = true from rfl, if_pos rfl]
    congr 2
    · norm_num [lmin]
    · norm_num [lmin]
      rw [min_eq_left (a := -(4 * (b : ℝ) * 2)) (by linarith), min_eq_left (by linarith)]
      ring
    · norm_num [lmax]
    · norm_num [lmax]
      linarith
  unfold winAtZs
  rw [hd, ok_bind, show (humpDem b zlo zhi m).t = ⟨1, 0, 0, 0, -1, b + 3⟩ from rfl,
    fromBounds_northUp ⟨by norm_num, rfl, rfl, by norm_num⟩ (by norm_num) (by simp only; linarith), ok_bind]
  have e1 : ((0 : ℝ) - 0) / 1 = 0 := by norm_num
  have e2 : ((2 : ℝ) - 0) / 1 = 2 := by norm_num
  have e3 : ((2 : ℝ) - (b + 3)) / -1 = b + 1 := by ring
  have e4 : (-(8 * (b : ℝ)) - 2) / -1 = 8 * b + 2 := by ring
  simp only [e1, e2, e3, e4]
  have hi : (⟨0, 0, ((humpDem b zlo zhi m).w : ℝ), ((humpDem b zlo zhi m).h : ℝ)⟩ : RWin ℝ).inter ⟨0, b + 1, 2, 8 * b + 2⟩ =
      .ok ⟨0, b + 1, 2, 8 * b + 2⟩ := by
    have hw : ((humpDem b zlo zhi m).w : ℝ) = 2 := by simp [humpDem]
    have hh : ((humpDem b zlo zhi m).h : ℝ) = 9 * b + 3 := by simp [humpDem]
    simp only [RWin.inter, hw, hh, zero_add]
    have m1 : max (0 : ℝ) (b + 1) = b + 1 := max_eq_right (by linarith)
    have m2 : min ((9 : ℝ) * b + 3) (b + 1 + (8 * b + 2)) = b + 1 + (8 * b + 2) := min_eq_right (by linarith)
    rw [m1, m2, if_neg (by push Not; constructor <;> [norm_num; linarith])]
    congr 2
    all_goals norm_num
  rw [hi]
  simp only [expandWindowToGrid]
  have c : ((b : ℝ) + 1) = (((b : ℤ) + 1 : ℤ) : ℝ) := by push_cast; ring
  have c' : (8 * (b : ℝ) + 2) = ((8 * (b : ℤ) + 2 : ℤ) : ℝ) := by push_cast; ring
  rw [c, c']
  simp only [Int.cast_zero, sub_zero, mul_zero, add_zero, Int.fract_zero, Int.fract_intCast, Int.floor_intCast, Int.ceil_intCast,
    Int.floor_zero, Int.ceil_ofNat]

/-- C106: the crop can lose ground that is seen, for GCP cameras with a transform of order two (as GDAL fits to six GCPs or more): by any
number `b` of pixels of the DEM, for level DEMs of any elevation and any range that is searched, with GDAL's transforms of order two exact
inverses of each other.  The image has 3 x 3 pixels, and the ground that is lost is seen between two pixels of a side. -/
theorem C106_gcp_fails (b : ℕ) (hb : 1 ≤ b) (zlo zhi m : ℝ) :
    ∃ (fwd : ℝ × ℝ × ℝ → ℝ × ℝ) (inv : ℝ × ℝ → ℝ → ℝ × ℝ) (d : DemIn ℝ) (o : DemOut ℝ) (row col : ℕ), GcpDem inv (3, 3) d ∧
      (∀ x y z, fwd (x, y, z) = (x + 1 / 2, y + 4 * b * x ^ 2 - 4 * b * x + 1 / 2)) ∧
      (∀ x y z, inv (fwd (x, y, z)) z = (x, y)) ∧ (∀ q z, fwd ((inv q z).1, (inv q z).2, z) = q) ∧
      d.zlo = zlo ∧ d.zhi = zhi ∧ d.crsEqual = true ∧ (∀ x y e, d.zmap x y (some e) = e) ∧ (∀ row col, d.val row col = some m) ∧
      initDem d = .ok o ∧ row < d.h ∧ col < d.w ∧
      GcpSeesAt fwd (3, 3) (d.t.apply (col + 1 / 2) (row + 1 / 2)) m ∧
      ∀ u' v' : ℝ, 0 ≤ v' → (o.t.apply u' v').2 + (b - 1 / 2) ≤ (d.t.apply (col + 1 / 2) (row + 1 / 2)).2 := by
  refine ⟨humpFwd b, humpInv b, humpDem b zlo zhi m, cropDem (humpDem b zlo zhi m) ⟨0, b + 1, 2, 8 * b + 2⟩ ⟨0, b + 1, 2, 8 * b + 2⟩, 1, 0,
    hump_dem b zlo zhi m, ?_, ?_, ?_, rfl, rfl, rfl, fun _ _ _ => rfl, fun _ _ => rfl, ?_, ?_, ?_, ?_, ?_⟩
  · intro x y z
    simp only [humpFwd]
    refine Prod.ext rfl ?_
    simp only
    ring
  · intro x y z
    simp only [humpFwd, humpInv]
    refine Prod.ext ?_ ?_ <;> simp only <;> ring
  · intro q z
    simp only [humpFwd, humpInv]
    refine Prod.ext ?_ ?_ <;> simp only <;> ring
  · unfold initDem
    rw [hump_win, ok_bind]
    have hz : ∀ win, demZs (humpDem b zlo zhi m) win = [m, m] := fun win => rfl
    rw [hz, hump_win, ok_bind]
    have : interI ⟨0, (b : ℤ) + 1, 2, 8 * b + 2⟩ ⟨0, (b : ℤ) + 1, 2, 8 * b + 2⟩ = .ok ⟨0, (b : ℤ) + 1, 2, 8 * b + 2⟩ := by
      unfold interI
      rw [if_neg (by simp only; push Not; constructor <;> omega)]
      congr 2 <;> simp
    rw [this, ok_bind]
  · simp only [humpDem]; omega
  · simp [humpDem]
  · simp only [GcpSeesAt, gcpWorldToPixel, humpFwd, humpDem, Affine.apply]
    refine ⟨?_, ?_, ?_, ?_⟩ <;> norm_num <;> ring_nf <;> norm_num
  · intro u' v' h1
    simp only [cropDem, Affine.window_apply]
    simp only [humpDem, Affine.apply]
    push_cast
    have hb' : (1 : ℝ) ≤ b := by exact_mod_cast hb
    linarith

/-- `C106_gcp_fails` where 3 pixels of the DEM are lost, at 100 m. -/
example : ∃ (fwd : ℝ × ℝ × ℝ → ℝ × ℝ) (inv : ℝ × ℝ → ℝ → ℝ × ℝ) (d : DemIn ℝ) (o : DemOut ℝ) (row col : ℕ), GcpDem inv (3, 3) d ∧
    initDem d = .ok o ∧ row < d.h ∧ col < d.w ∧ GcpSeesAt fwd (3, 3) (d.t.apply (col + 1 / 2) (row + 1 / 2)) 100 ∧
    ∀ u' v' : ℝ, 0 ≤ v' → (o.t.apply u' v').2 + 2 < (d.t.apply (col + 1 / 2) (row + 1 / 2)).2 := by
  obtain ⟨fwd, inv, d, o, row, col, h1, -, -, -, -, -, -, -, -, h2, h3, h4, h5, h6⟩ := C106_gcp_fails 3 (by norm_num) (-106) 8932 100
  refine ⟨fwd, inv, d, o, row, col, h1, h2, h3, h4, h5, fun u' v' h => ?_⟩
  have := h6 u' v' h
  push_cast at this
  linarith

/-- A DEM of 30 x 30 pixels, of which a GCP camera with an image of 3 x 3 pixels sees a part: pixel (j, i) has the ground
(2 j + i, 10 - j - 3 i). -/
def turnedDem (val : ℕ → ℕ → ℝ) : DemIn ℝ where
  t := ⟨1, 0, -10, 0, -1, 20⟩
  w := 30
  h := 30
  val row col := some (val row col)
  crsEqual := true
  tb := .ok
  boundary _ := .ok ((boundary8 (3, 3)).map fun p => (2 * p.1 + p.2, 10 - p.1 - 3 * p.2))
  zlo := -106
  zhi := 8932
  zmap _ _ e := e.getD 0
  f32 x := x

/-- `C106_gcp_affine_partial` for that camera and DEM. -/
example (val : ℕ → ℕ → ℝ) (hval : ∀ r c, 0 ≤ val r c ∧ val r c ≤ 100) (o : DemOut ℝ) (ho : initDem (turnedDem val) = .ok o)
    (row col : ℕ) (hrow : row < 30) (hcol : col < 30)
    (hs : InIm (3, 3) ((3 * ((col : ℝ) - 10 + 1 / 2) + (20 - row - 1 / 2) - 10) / 5, (20 - 2 * (20 - (row : ℝ) - 1 / 2) - (col - 10 + 1 / 2)) / 5)) :
    ∃ row' col' : ℕ, row' < o.h ∧ col' < o.w ∧ o.arr row' col' = some (val row col) := by
  obtain ⟨row', col', h1, h2, h3, -⟩ := C106_gcp_affine_partial ⟨2, 1, -3 / 2, -1, -3, 12⟩ (by norm_num)
    (fun p => ((3 * p.1 + p.2.1 - 10) / 5 + 1 / 2, (20 - 2 * p.2.1 - p.1) / 5 + 1 / 2))
    (fun q _ => (⟨2, 1, -3 / 2, -1, -3, 12⟩ : Affine ℝ).apply q.1 q.2) (fun _ _ => rfl)
    (fun q z => by simp only [Affine.apply]; refine Prod.ext ?_ ?_ <;> simp only <;> ring) (3, 3) (turnedDem val)
    (fun z Xs h => by
      rw [gcp_boundary, Except.ok.injEq] at h
      have inj : Function.Injective flPt := by
        intro X Y hXY
        simp only [flPt, Prod.mk.injEq, Fl.val.injEq] at hXY
        exact Prod.ext hXY.1 (Prod.ext hXY.2.1 hXY.2.2)
      rw [← inj.list_map h, List.map_map]
      simp only [turnedDem]
      refine congrArg Except.ok (List.map_congr_left fun p _ => ?_)
      simp only [Function.comp, Affine.apply]
      refine Prod.ext ?_ ?_ <;> simp only <;> ring)
    id (.inl ⟨rfl, rfl⟩) id monotone_id (fun _ _ _ => rfl)
    (fun r c x hx => by
      simp only [turnedDem, Option.some.injEq, id] at hx ⊢
      have := hval r c
      constructor <;> linarith)
    o ho row col hrow hcol (val row col) rfl (col + 1 / 2) (row + 1 / 2) (by constructor <;> linarith) (by constructor <;> linarith)
    (by
      have e : gcpWorldToPixel (fun p => ((3 * p.1 + p.2.1 - 10) / 5 + 1 / 2, (20 - 2 * p.2.1 - p.1) / 5 + 1 / 2))
          (((turnedDem val).t.apply (col + 1 / 2) (row + 1 / 2)).1, ((turnedDem val).t.apply (col + 1 / 2) (row + 1 / 2)).2, val row col) =
          ((3 * ((col : ℝ) - 10 + 1 / 2) + (20 - row - 1 / 2) - 10) / 5, (20 - 2 * (20 - (row : ℝ) - 1 / 2) - (col - 10 + 1 / 2)) / 5) := by
        simp only [gcpWorldToPixel, turnedDem, Affine.apply]
        refine Prod.ext ?_ ?_ <;> simp only <;> ring
      unfold GcpSeesAt
      simp only [id]
      rw [e]
      exact hs)
  exact ⟨row', col', h1, h2, h3⟩

end

end Verif.Dem
