import Verif.Dem.Sees
import Verif.Rpc.Boundary

/-!
# The crop of the DEM and the ground that an RPC camera sees (C106)
-/

set_option autoImplicit false

namespace Verif.Dem

open Verif.Frame (InIm pixelBoundary boundary8) 
open Verif.RpcCam Verif.Common Verif.Ortho
open Res (ok_bind error_bind)

noncomputable section

/-! ## Specification -/

/-- `DemIn.boundary` is that of the RPC camera, where all of it is numbers: `self._camera.world_boundary(z)` with its default number of
points, orthority/ortho.py:158. -/
def RpcDem (inv : ℝ × ℝ → ℝ → ℝ × ℝ) (warps : Option Warps) (im : ℕ × ℕ) (d : DemIn ℝ) : Prop :=
  ∀ z (Xs : List (ℝ × ℝ × ℝ)), rpcBoundary inv warps im (.scalar z) none = .ok (Xs.map flPt) →
    d.boundary z = .ok (Xs.map fun X => (X.1, X.2.1))

/-- `world_to_pixel` puts the ground at the location (u, v) of the DEM, in pixels, where the ground has the elevation x, in the image. -/
def RpcSees (warps : Option Warps) (r : Rpc ℝ) (im : ℕ × ℕ) (d : DemIn ℝ) (u v x : ℝ) : Prop :=
  ∃ p, InIm im p ∧ worldToPixel (warps.map Prod.snd) r [flPt ((d.t.apply u v).1, (d.t.apply u v).2, x)] = pix [p]

/-- `world_to_pixel` puts the point with the location q in the world, and the elevation x, in the image. -/
def RpcSeesAt (warps : Option Warps) (r : Rpc ℝ) (im : ℕ × ℕ) (q : ℝ × ℝ) (x : ℝ) : Prop :=
  ∃ p, InIm im p ∧ worldToPixel (warps.map Prod.snd) r [flPt (q.1, q.2, x)] = pix [p]

/-- GDAL's reverse transform and that of the CRS find all points that the camera sees, at the heights from `lo` to `hi`. -/
def FindsAll (inv : ℝ × ℝ → ℝ → ℝ × ℝ) (warps : Option Warps) (r : Rpc ℝ) (im : ℕ × ℕ) (lo hi : ℝ) : Prop :=
  ∀ p, InIm im p → ∀ z, lo ≤ z → z ≤ hi → ∀ x y,
    worldToPixel (warps.map Prod.snd) r [flPt (x, y, z)] = pix [p] → Ground inv warps p z (x, y, z)

/-- A function that does not turn between `a` and `b`. -/
def Steady (f : ℝ → ℝ) (a b : ℝ) : Prop := MonotoneOn f (Set.Icc a b) ∨ AntitoneOn f (Set.Icc a b)

/-- A coordinate of the ground does not turn along rows, columns and rays of the image. -/
structure SteadyGround (im : ℕ × ℕ) (lo hi : ℝ) (G : ℝ × ℝ → ℝ → ℝ) : Prop where
  row : ∀ i z, 0 ≤ i → i ≤ (im.2 : ℝ) - 1 → lo ≤ z → z ≤ hi → Steady (fun j => G (j, i) z) 0 (im.1 - 1)
  col : ∀ j z, 0 ≤ j → j ≤ (im.1 : ℝ) - 1 → lo ≤ z → z ≤ hi → Steady (fun i => G (j, i) z) 0 (im.2 - 1)
  ray : ∀ p, InIm im p → Steady (G p) lo hi

/-- `W` gives the location in the world CRS of a location in the CRS of the DEM, and `transform_bounds` (orthority/ortho.py:161-165)
gives bounds of all that is in the bounds of the world. -/
def InCrs (d : DemIn ℝ) (W : ℝ × ℝ → ℝ × ℝ) : Prop :=
  (d.crsEqual = true ∧ W = id) ∨
  (d.crsEqual = false ∧ ∀ b b', d.tb b = .ok b' → ∀ p : ℝ × ℝ, b.Has (W p).1 (W p).2 → b'.Has p.1 p.2)

/-! ## Lemmas -/

theorem InCrs.same {d : DemIn ℝ} (h : d.crsEqual = true ∨ ∀ b, d.tb b = .ok b) : InCrs d id := by
  cases hc : d.crsEqual with
  | true => exact .inl ⟨hc, rfl⟩
  | false =>
    refine .inr ⟨hc, fun b b' hb p hp => ?_⟩
    rcases h with h | h
    · rw [hc] at h; cases h
    · rw [h, Except.ok.injEq] at hb
      subst hb
      exact hp

theorem Steady.neg {f : ℝ → ℝ} {a b : ℝ} (h : Steady f a b) : Steady (fun t => -f t) a b := by
  rcases h with h | h
  · exact .inr fun x hx y hy hxy => neg_le_neg (h hx hy hxy)
  · exact .inl fun x hx y hy hxy => neg_le_neg (h hx hy hxy)

theorem Steady.low {f : ℝ → ℝ} {a b : ℝ} (h : Steady f a b) {a' t b' : ℝ} (h0 : a ≤ a') (h1 : a' ≤ t) (h2 : t ≤ b') (h3 : b' ≤ b) :
    f a' ≤ f t ∨ f b' ≤ f t := by
  rcases h with h | h
  · exact .inl (h ⟨h0, by linarith⟩ ⟨by linarith, by linarith⟩ h1)
  · exact .inr (h ⟨by linarith, by linarith⟩ ⟨by linarith, h3⟩ h2)

theorem SteadyGround.neg {im : ℕ × ℕ} {lo hi : ℝ} {G : ℝ × ℝ → ℝ → ℝ} (h : SteadyGround im lo hi G) :
    SteadyGround im lo hi fun p z => -G p z :=
  ⟨fun i z a b c d => (h.row i z a b c d).neg, fun j z a b c d => (h.col j z a b c d).neg, fun p hp => (h.ray p hp).neg⟩

theorem SteadyGround.low {im : ℕ × ℕ} {lo hi : ℝ} {G : ℝ × ℝ → ℝ → ℝ} (h : SteadyGround im lo hi G) {p : ℝ × ℝ} (hp : InIm im p)
    {za z zb : ℝ} (h0 : lo ≤ za) (h1 : za ≤ z) (h2 : z ≤ zb) (h3 : zb ≤ hi) :
    ∃ q ∈ boundary8 im, ∃ z' : ℝ, (z' = za ∨ z' = zb) ∧ G q z' ≤ G p z := by
  obtain ⟨z', hz', g1⟩ : ∃ z' : ℝ, (z' = za ∨ z' = zb) ∧ G p z' ≤ G p z := by
    rcases (h.ray p hp).low h0 h1 h2 h3 with g | g
    · exact ⟨za, .inl rfl, g⟩
    · exact ⟨zb, .inr rfl, g⟩
  have hz : lo ≤ z' ∧ z' ≤ hi := by rcases hz' with rfl | rfl <;> constructor <;> linarith
  obtain ⟨p1, p2, p3, p4⟩ := hp
  obtain ⟨j, hj, g2⟩ : ∃ j : ℝ, (j = 0 ∨ j = (im.1 : ℝ) - 1) ∧ G (j, p.2) z' ≤ G p z' := by
    rcases (h.row p.2 z' p3 p4 hz.1 hz.2).low le_rfl p1 p2 le_rfl with g | g
    · exact ⟨0, .inl rfl, g⟩
    · exact ⟨_, .inr rfl, g⟩
  have hj' : 0 ≤ j ∧ j ≤ (im.1 : ℝ) - 1 := by rcases hj with rfl | rfl <;> constructor <;> linarith
  obtain ⟨i, hi', g3⟩ : ∃ i : ℝ, (i = 0 ∨ i = (im.2 : ℝ) - 1) ∧ G (j, i) z' ≤ G (j, p.2) z' := by
    rcases (h.col j z' hj'.1 hj'.2 hz.1 hz.2).low le_rfl p3 p4 le_rfl with g | g
    · exact ⟨0, .inl rfl, g⟩
    · exact ⟨_, .inr rfl, g⟩
  refine ⟨(j, i), ?_, z', hz', g3.trans (g2.trans g1)⟩
  rcases hj with rfl | rfl <;> rcases hi' with rfl | rfl <;> simp [boundary8]

theorem stack_mem {boundary : ℝ → Res (List (ℝ × ℝ))} {zs : List ℝ} {pts : List (ℝ × ℝ)} (h : stackBoundary boundary zs = .ok pts)
    {z : ℝ} (hz : z ∈ zs) : ∃ l, boundary z = .ok l ∧ ∀ q ∈ l, q ∈ pts := by
  induction zs generalizing pts with
  | nil => cases hz
  | cons a zs ih =>
    simp only [stackBoundary] at h
    cases ha : boundary a with
    | error e => rw [ha] at h; cases h
    | ok l =>
      rw [ha, ok_bind] at h
      cases hs : stackBoundary boundary zs with
      | error e => rw [hs] at h; cases h
      | ok l' =>
        rw [hs, ok_bind, Except.ok.injEq] at h
        subst h
        rcases List.mem_cons.1 hz with rfl | hz
        · exact ⟨l, ha, fun q hq => List.mem_append_left _ hq⟩
        · obtain ⟨m, hm, hq⟩ := ih hs hz
          exact ⟨m, hm, fun q hq' => List.mem_append_right _ (hq q hq')⟩

/-- A pixel of the DEM is kept, if for elevations on both sides of its own its location in the world is in the box around the stacked
boundaries. -/
theorem keeps_in (d : DemIn ℝ) (W : ℝ × ℝ → ℝ × ℝ) (hcrs : InCrs d W) (g : ℝ → ℝ) (hg : Monotone g)
    (hz : ∀ x y e, d.zmap x y (some e) = g e) (hr : ∀ row col x, d.val row col = some x → d.zlo ≤ g x ∧ g x ≤ d.zhi)
    (o : DemOut ℝ) (ho : initDem d = .ok o) (row col : ℕ) (hrow : row < d.h) (hcol : col < d.w) (x : ℝ)
    (hx : d.val row col = some x) (u v : ℝ) (hu : col < u ∧ u < col + 1) (hv : row < v ∧ v < row + 1)
    (hbox : ∀ za zb pts, d.zlo ≤ za → za ≤ g x → g x ≤ zb → zb ≤ d.zhi → stackBoundary d.boundary [za, zb] = .ok pts →
      InBox pts (W (d.t.apply u v)).1 (W (d.t.apply u v)).2) :
    ∃ row' col' : ℕ, row' < o.h ∧ col' < o.w ∧ o.arr row' col' = some (d.f32 x) ∧
      ∀ a b : ℝ, o.t.apply (col' + a) (row' + b) = d.t.apply (col + a) (row + b) := by
  obtain ⟨first, win₂, win, e1, e2, e3, rfl⟩ := initDem_ok ho
  obtain ⟨b₁, hb₁, k1⟩ := winAtZs_has e1
  obtain ⟨b₂, hb₂, k2⟩ := winAtZs_has e2
  have has : ∀ {za zb : ℝ} {b : Bnds ℝ}, d.zlo ≤ za → za ≤ g x → g x ≤ zb → zb ≤ d.zhi → demBounds d [za, zb] = .ok b →
      b.Has (d.t.apply u v).1 (d.t.apply u v).2 := by
    intro za zb b h0 h1 h2 h3 hd
    unfold demBounds at hd
    cases hs : stackBoundary d.boundary [za, zb] with
    | error e => rw [hs] at hd; cases hd
    | ok pts =>
      rw [hs, ok_bind] at hd
      cases hq : boundsOf pts with
      | error e => rw [hq] at hd; cases hd
      | ok b' =>
        rw [hq, ok_bind] at hd
        have hin := boundsOf_has hq (hbox za zb pts h0 h1 h2 h3 hs)
        rcases hcrs with ⟨hcrs, rfl⟩ | ⟨hcrs, hW⟩
        · rw [hcrs] at hd
          simp only [if_true, Except.ok.injEq] at hd
          subst hd
          exact hin
        · rw [hcrs] at hd
          exact hW b' b hd _ hin
  have hcol' : (col : ℝ) + 1 ≤ d.w := by exact_mod_cast hcol
  have hrow' : (row : ℝ) + 1 ≤ d.h := by exact_mod_cast hrow
  have u0 : 0 ≤ u := (Nat.cast_nonneg col).trans hu.1.le
  have v0 : 0 ≤ v := (Nat.cast_nonneg row).trans hv.1.le
  have u1 : u ≤ d.w := by linarith [hu.2]
  have v1 : v ≤ d.h := by linarith [hv.2]
  have f1 : first.Has u v := k1 u v u0 u1 v0 v1 (has le_rfl (hr _ _ _ hx).1 (hr _ _ _ hx).2 le_rfl hb₁)
  obtain ⟨q1, q2, q3, q4⟩ := has_cell f1 hu.1 hu.2 hv.1 hv.2
  obtain ⟨lo, hi, -, -, -, -, hzs, hext⟩ := C54_extremes d first e1
  have hread : readWin d first (row - first.rowOff).toNat (col - first.colOff).toNat = some x := by
    unfold readWin
    rw [Int.toNat_of_nonneg (by omega), Int.toNat_of_nonneg (by omega)]
    simpa using hx
  obtain ⟨⟨a, ha, hax⟩, ⟨b, hb', hxb⟩⟩ := hext _ _ (by omega) (by omega) x hread
  rw [List.map_cons, List.map_cons, List.map_nil, ha, hb', hz, hz] at hzs
  rw [hzs] at hb₂
  have f2 : win₂.Has u v := k2 u v u0 u1 v0 v1 (has (hr _ _ _ ha).1 (hg hax) (hg hxb) (hr _ _ _ hb').2 hb₂)
  obtain ⟨-, hin, s1, s2, hi'⟩ := interI_ok (K := ℝ) e3
  obtain ⟨p1, p2, p3, p4⟩ := has_cell (hi' u v f2 f1) hu.1 hu.2 hv.1 hv.2
  obtain ⟨i1, i2, i3, i4⟩ := hin
  refine ⟨(row - win.rowOff).toNat, (col - win.colOff).toNat, ?_, ?_, ?_, fun a b => ?_⟩
  · simp only [cropDem]; omega
  · simp only [cropDem]; omega
  · simp only [cropDem, readWin]
    have r1 : (first.rowOff + ((win.rowOff - first.rowOff + ((row - win.rowOff).toNat : ℤ)).toNat : ℤ)).toNat = row := by omega
    have r2 : (first.colOff + ((win.colOff - first.colOff + ((col - win.colOff).toNat : ℤ)).toNat : ℤ)).toNat = col := by omega
    rw [r1, r2, hx]
    rfl
  · simp only [cropDem, Affine.window_apply]
    have r1 : (((row - win.rowOff).toNat : ℕ) : ℝ) = row - win.rowOff := by
      have : (((row - win.rowOff).toNat : ℕ) : ℤ) = row - win.rowOff := Int.toNat_of_nonneg (by omega)
      exact_mod_cast this
    have r2 : (((col - win.colOff).toNat : ℕ) : ℝ) = col - win.colOff := by
      have : (((col - win.colOff).toNat : ℕ) : ℤ) = col - win.colOff := Int.toNat_of_nonneg (by omega)
      exact_mod_cast this
    rw [r1, r2]
    congr 1 <;> ring

theorem keeps (d : DemIn ℝ) (hcrs : d.crsEqual = true ∨ ∀ b, d.tb b = .ok b) (g : ℝ → ℝ) (hg : Monotone g)
    (hz : ∀ x y e, d.zmap x y (some e) = g e) (hr : ∀ row col x, d.val row col = some x → d.zlo ≤ g x ∧ g x ≤ d.zhi)
    (o : DemOut ℝ) (ho : initDem d = .ok o) (row col : ℕ) (hrow : row < d.h) (hcol : col < d.w) (x : ℝ)
    (hx : d.val row col = some x) (u v : ℝ) (hu : col < u ∧ u < col + 1) (hv : row < v ∧ v < row + 1)
    (hbox : ∀ za zb pts, d.zlo ≤ za → za ≤ g x → g x ≤ zb → zb ≤ d.zhi → stackBoundary d.boundary [za, zb] = .ok pts →
      InBox pts (d.t.apply u v).1 (d.t.apply u v).2) :
    ∃ row' col' : ℕ, row' < o.h ∧ col' < o.w ∧ o.arr row' col' = some (d.f32 x) ∧
      ∀ a b : ℝ, o.t.apply (col' + a) (row' + b) = d.t.apply (col + a) (row + b) :=
  keeps_in d id (InCrs.same hcrs) g hg hz hr o ho row col hrow hcol x hx u v hu hv hbox

theorem default_boundary (im : ℕ × ℕ) : pixelBoundary (K := ℝ) im none = .ok (boundary8 im) := by
  unfold pixelBoundary
  rfl

theorem boundary8_in {im : ℕ × ℕ} (hw : 0 < im.1) (hh : 0 < im.2) {p : ℝ × ℝ} (hp : p ∈ boundary8 im) : InIm im p := by
  have hw' : (1 : ℝ) ≤ im.1 := by exact_mod_cast hw
  have hh' : (1 : ℝ) ≤ im.2 := by exact_mod_cast hh
  simp only [boundary8, List.mem_cons, List.not_mem_nil, or_false] at hp
  unfold InIm
  rcases hp with rfl | rfl | rfl | rfl | rfl | rfl | rfl | rfl <;> refine ⟨?_, ?_, ?_, ?_⟩ <;> simp only <;> linarith

theorem Ground.unique {inv : ℝ × ℝ → ℝ → ℝ × ℝ} {warps : Option Warps} {p : ℝ × ℝ} {z : ℝ} {X Y : ℝ × ℝ × ℝ}
    (h : Ground inv warps p z X) (h' : Ground inv warps p z Y) : X = Y := by
  unfold Ground at h h'
  cases warps with
  | none => rw [h, h']
  | some w =>
    simp only at h h'
    rw [h] at h'
    simp only [Prod.mk.injEq, Fl.val.injEq] at h'
    exact Prod.ext h'.1 (Prod.ext h'.2.1 h'.2.2)

/-! ## Theorems -/

/-- C106: the crop of the DEM keeps all ground that an RPC camera sees, also when the DEM is in another horizontal CRS, as long as
`transform_bounds` gives bounds of all that is in the bounds it is given: with the conditions of `C106_rpc_partial` besides. -/
theorem C106_rpc_crs_partial (inv : ℝ × ℝ → ℝ → ℝ × ℝ) (warps : Option Warps) (r : Rpc ℝ) (im : ℕ × ℕ) (hw : 0 < im.1) (hh : 0 < im.2)
    (d : DemIn ℝ) (hb : RpcDem inv warps im d) (W : ℝ × ℝ → ℝ × ℝ) (hcrs : InCrs d W) (g : ℝ → ℝ) (hg : Monotone g)
    (hz : ∀ x y e, d.zmap x y (some e) = g e) (hr : ∀ row col x, d.val row col = some x → d.zlo ≤ g x ∧ g x ≤ d.zhi)
    (hright : ∀ p, InIm im p → ∀ z, d.zlo ≤ z → z ≤ d.zhi → RightAt inv r warps p z) (hall : FindsAll inv warps r im d.zlo d.zhi)
    (G : ℝ × ℝ → ℝ → ℝ × ℝ × ℝ) (hG : ∀ p, InIm im p → ∀ z, d.zlo ≤ z → z ≤ d.zhi → Ground inv warps p z (G p z))
    (hx' : SteadyGround im d.zlo d.zhi fun p z => (G p z).1) (hy' : SteadyGround im d.zlo d.zhi fun p z => (G p z).2.1)
    (o : DemOut ℝ) (ho : initDem d = .ok o) (row col : ℕ) (hrow : row < d.h) (hcol : col < d.w) (x : ℝ)
    (hx : d.val row col = some x) (u v : ℝ) (hu : col < u ∧ u < col + 1) (hv : row < v ∧ v < row + 1)
    (hs : RpcSeesAt warps r im (W (d.t.apply u v)) (g x)) :
    ∃ row' col' : ℕ, row' < o.h ∧ col' < o.w ∧ o.arr row' col' = some (d.f32 x) ∧
      ∀ a b : ℝ, o.t.apply (col' + a) (row' + b) = d.t.apply (col + a) (row + b) := by
  refine keeps_in d W hcrs g hg hz hr o ho row col hrow hcol x hx u v hu hv fun za zb pts h0 h1 h2 h3 hst => ?_
  obtain ⟨p, hp, hpix⟩ := hs
  have hgr := hall p hp (g x) (hr _ _ _ hx).1 (hr _ _ _ hx).2 _ _ hpix
  have hXY := Ground.unique (hG p hp (g x) (hr _ _ _ hx).1 (hr _ _ _ hx).2) hgr
  -- points of the boundary
  have mem : ∀ q ∈ boundary8 im, ∀ z : ℝ, (z = za ∨ z = zb) → ((G q z).1, (G q z).2.1) ∈ pts := by
    intro q hq z hz'
    have hzr : d.zlo ≤ z ∧ z ≤ d.zhi := by rcases hz' with rfl | rfl <;> constructor <;> linarith
    have hzm : z ∈ [za, zb] := by rcases hz' with rfl | rfl <;> simp
    obtain ⟨l, hl, hsub⟩ := stack_mem hst hzm
    obtain ⟨Xs, e1, e2, -⟩ := C108_elevation inv warps r im none _ (default_boundary im) z
      fun p hp => hright p (boundary8_in hw hh hp) z hzr.1 hzr.2
    have hl' := hb z Xs e1
    rw [hl, Except.ok.injEq] at hl'
    refine hsub _ ?_
    rw [hl']
    obtain ⟨X, hX, hXg⟩ : ∃ X ∈ Xs, Ground inv warps q z X := by
      have : ∀ {Xs : List (ℝ × ℝ × ℝ)} {l : List (ℝ × ℝ)}, List.Forall₂ (fun X p => X.2.2 = z ∧ Ground inv warps p z X) Xs l → q ∈ l →
          ∃ X ∈ Xs, Ground inv warps q z X := by
        intro Xs l h
        induction h with
        | nil => intro h; cases h
        | cons h _ ih =>
          intro hq
          rcases List.mem_cons.1 hq with rfl | hq
          · exact ⟨_, by simp, h.2⟩
          · obtain ⟨X, h1, h2⟩ := ih hq
            exact ⟨X, by simp [h1], h2⟩
      exact this e2 hq
    have := Ground.unique (hG q (boundary8_in hw hh hq) z hzr.1 hzr.2) hXg
    rw [this]
    exact List.mem_map.2 ⟨X, hX, rfl⟩
  have c1 : (G p (g x)).1 = (W (d.t.apply u v)).1 := by rw [hXY]
  have c2 : (G p (g x)).2.1 = (W (d.t.apply u v)).2 := by rw [hXY]
  rw [← c1, ← c2]
  refine ⟨?_, ?_, ?_, ?_⟩
  · obtain ⟨q, hq, z, hz', k⟩ := hx'.low hp h0 h1 h2 h3
    exact ⟨_, mem q hq z hz', k⟩
  · obtain ⟨q, hq, z, hz', k⟩ := hx'.neg.low hp h0 h1 h2 h3
    exact ⟨_, mem q hq z hz', neg_le_neg_iff.1 k⟩
  · obtain ⟨q, hq, z, hz', k⟩ := hy'.low hp h0 h1 h2 h3
    exact ⟨_, mem q hq z hz', k⟩
  · obtain ⟨q, hq, z, hz', k⟩ := hy'.neg.low hp h0 h1 h2 h3
    exact ⟨_, mem q hq z hz', neg_le_neg_iff.1 k⟩

/-- C106: the crop of the DEM keeps all ground that an RPC camera sees, when the coordinates of the ground do not turn along rows, columns
and rays of the image; GDAL's reverse transform and those of the CRS are inverse, in the image and for elevations in the range that is
searched; the elevations of the DEM are in the range; the DEM has the horizontal CRS of the world, and the elevation in the world follows
from that in the DEM (`g`).  Missing: models with rays that turn (`C106_rpc_fails`), and other vertical datums. -/
theorem C106_rpc_partial (inv : ℝ × ℝ → ℝ → ℝ × ℝ) (warps : Option Warps) (r : Rpc ℝ) (im : ℕ × ℕ) (hw : 0 < im.1) (hh : 0 < im.2)
    (d : DemIn ℝ) (hb : RpcDem inv warps im d) (hcrs : d.crsEqual = true ∨ ∀ b, d.tb b = .ok b) (g : ℝ → ℝ) (hg : Monotone g)
    (hz : ∀ x y e, d.zmap x y (some e) = g e) (hr : ∀ row col x, d.val row col = some x → d.zlo ≤ g x ∧ g x ≤ d.zhi)
    (hright : ∀ p, InIm im p → ∀ z, d.zlo ≤ z → z ≤ d.zhi → RightAt inv r warps p z) (hall : FindsAll inv warps r im d.zlo d.zhi)
    (G : ℝ × ℝ → ℝ → ℝ × ℝ × ℝ) (hG : ∀ p, InIm im p → ∀ z, d.zlo ≤ z → z ≤ d.zhi → Ground inv warps p z (G p z))
    (hx' : SteadyGround im d.zlo d.zhi fun p z => (G p z).1) (hy' : SteadyGround im d.zlo d.zhi fun p z => (G p z).2.1)
    (o : DemOut ℝ) (ho : initDem d = .ok o) (row col : ℕ) (hrow : row < d.h) (hcol : col < d.w) (x : ℝ)
    (hx : d.val row col = some x) (u v : ℝ) (hu : col < u ∧ u < col + 1) (hv : row < v ∧ v < row + 1)
    (hs : RpcSees warps r im d u v (g x)) :
    ∃ row' col' : ℕ, row' < o.h ∧ col' < o.w ∧ o.arr row' col' = some (d.f32 x) ∧
      ∀ a b : ℝ, o.t.apply (col' + a) (row' + b) = d.t.apply (col + a) (row + b) :=
  C106_rpc_crs_partial inv warps r im hw hh d hb id (InCrs.same hcrs) g hg hz hr hright hall G hG hx' hy' o ho row col hrow hcol x hx u v
    hu hv hs

/-! ## Where the crop loses ground -/

/-- The model j = L + b ((H - m) / s)², i = P: rays that turn at the middle height m. -/
def archRpc (b m s : ℝ) : Rpc ℝ := { bowRpc b with heightOff := m, heightScale := s }

/-- Its inverse. -/
def archInv (b m s : ℝ) : ℝ × ℝ → ℝ → ℝ × ℝ := fun p z => (p.1 - 1 / 2 - b * ((z - m) / s) ^ 2, p.2 - 1 / 2)

theorem arch_defined (b m s : ℝ) (hs : s ≠ 0) (p : ℝ × ℝ × ℝ) : Defined (archRpc b m s) p := by
  refine ⟨?_, ?_, ?_, ?_, ?_⟩
  · simp [archRpc, bowRpc]
  · simp [archRpc, bowRpc]
  · simpa [archRpc] using hs
  · rw [← C29_poly]; simp [poly, archRpc, bowRpc]
  · rw [← C29_poly]; simp [poly, archRpc, bowRpc]

theorem arch_project (b m s x y z : ℝ) : project (archRpc b m s) (x, y, z) = (x + b * ((z - m) / s) ^ 2, y) := by
  apply Prod.ext
  · simp [project, normXyz, poly, archRpc, bowRpc]; ring
  · simp [project, normXyz, poly, archRpc, bowRpc]

theorem arch_right (b m s : ℝ) (hs : s ≠ 0) (p : ℝ × ℝ) (z : ℝ) : RightAt (archInv b m s) (archRpc b m s) none p z := by
  refine ⟨arch_defined b m s hs _, ?_, ?_⟩
  · rw [arch_project]; simp [archInv]
  · intro _ _ h; cases h

theorem arch_pixel (b m s : ℝ) (hs : s ≠ 0) (x y z : ℝ) :
    worldToPixel none (archRpc b m s) [flPt (x, y, z)] = pix [(x + b * ((z - m) / s) ^ 2, y)] := by
  rw [C29_pointwise]
  have := evalPoint_val (archRpc b m s) (x, y, z) (arch_defined b m s hs _)
  rw [arch_project] at this
  simp only [List.map_cons, List.map_nil, toRpcCrs, flPt, pix]
  rw [this]

theorem arch_all (b m s : ℝ) (hs : s ≠ 0) (im : ℕ × ℕ) (lo hi : ℝ) : FindsAll (archInv b m s) none (archRpc b m s) im lo hi := by
  intro p _ z _ _ x y h
  rw [show (none : Option Warps).map Prod.snd = none from rfl, arch_pixel b m s hs] at h
  simp only [pix, List.map_cons, List.map_nil, List.cons.injEq, Prod.mk.injEq, Fl.val.injEq, and_true] at h
  obtain ⟨h1, h2⟩ := h
  refine Prod.ext ?_ (Prod.ext ?_ rfl)
  · simp only [archInv]; rw [← h1]; ring
  · simp only [archInv]; rw [← h2]; ring

/-- A DEM with 1 x 1 pixels around the ground that the camera with a 3 x 3 image sees, between the elevations. -/
def archDem (b : ℕ) (zlo zhi : ℝ) (val : ℕ → ℝ) : DemIn ℝ where
  t := ⟨1, 0, -(b + 1), 0, -1, 3⟩
  w := b + 4
  h := 4
  val _ col := some (val col)
  crsEqual := true
  tb := .ok
  boundary z := .ok ((boundary8 (3, 3)).map fun p => (p.1 - b * ((z - (zlo + zhi) / 2) / ((zhi - zlo) / 2)) ^ 2, p.2))
  zlo := zlo
  zhi := zhi
  zmap _ _ e := e.getD 0
  f32 x := x

theorem arch_dem (b : ℕ) (zlo zhi : ℝ) (val : ℕ → ℝ) :
    RpcDem (archInv b ((zlo + zhi) / 2) ((zhi - zlo) / 2)) none (3, 3) (archDem b zlo zhi val) := by
  intro z Xs h
  unfold rpcBoundary baseBoundary at h
  rw [default_boundary, ok_bind] at h
  simp only at h
  rw [scalar_eq _ none _ z fun p _ => rfl, Except.ok.injEq] at h
  have inj : Function.Injective flPt := by
    intro X Y hXY
    simp only [flPt, Prod.mk.injEq, Fl.val.injEq] at hXY
    exact Prod.ext hXY.1 (Prod.ext hXY.2.1 hXY.2.2)
  have h' : Xs = (boundary8 (3, 3)).map fun p => ground (archInv b ((zlo + zhi) / 2) ((zhi - zlo) / 2)) none p z := by
    apply inj.list_map
    rw [← h, List.map_map]
    rfl
  rw [h', List.map_map]
  simp only [archDem]
  refine congrArg Except.ok (List.map_congr_left fun p _ => ?_)
  simp only [Function.comp, ground, worldPoint, archInv, Option.map_none]
  refine Prod.ext ?_ ?_ <;> simp

/-- The window at two elevations at which the ground has moved by `k` pixels. -/
theorem arch_win (b : ℕ) (zlo zhi : ℝ) (val : ℕ → ℝ) (za zb : ℝ) (k : ℕ) (hk : k ≤ b)
    (ha : b * ((za - (zlo + zhi) / 2) / ((zhi - zlo) / 2)) ^ 2 = (k : ℝ)) (hb : b * ((zb - (zlo + zhi) / 2) / ((zhi - zlo) / 2)) ^ 2 = (k : ℝ)) :
    winAtZs (archDem b zlo zhi val) [za, zb] = .ok ⟨b + 1 - k, 1, 2, 2⟩ := by
  have hbd : ∀ z, b * ((z - (zlo + zhi) / 2) / ((zhi - zlo) / 2)) ^ 2 = (k : ℝ) → (archDem b zlo zhi val).boundary z =
      .ok ((boundary8 (3, 3)).map fun p => (p.1 - k, p.2)) := by
    intro z hz
    simp only [archDem, hz]
  have hd : demBounds (archDem b zlo zhi val) [za, zb] = .ok ⟨-k, 0, 2 - k, 2⟩ := by
    unfold demBounds stackBoundary stackBoundary stackBoundary
    rw [hbd za ha, hbd zb hb]
    simp only [ok_bind, List.append_nil]
    simp only [boundary8, List.map_cons, List.map_nil, List.cons_append, List.nil_append, boundsOf, ok_bind]
    rw [show (archDem b zlo zhi val).crsEqual = true from rfl, if_pos rfl]
    congr 2
    all_goals
      norm_num [lmin, lmax]
  unfold winAtZs
  rw [hd, ok_bind, show (archDem b zlo zhi val).t = ⟨1, 0, -(b + 1), 0, -1, 3⟩ from rfl,
    fromBounds_northUp ⟨by norm_num, rfl, rfl, by norm_num⟩ (by simp only; linarith) (by norm_num), ok_bind]
  have hkb : (k : ℝ) ≤ b := by exact_mod_cast hk
  have hk0 : (0 : ℝ) ≤ k := Nat.cast_nonneg k
  have e1 : (-(k : ℝ) - -((b : ℝ) + 1)) / 1 = b + 1 - k := by ring
  have e2 : (2 - (k : ℝ) - -k) / 1 = 2 := by ring
  have e3 : ((2 : ℝ) - 3) / -1 = 1 := by norm_num
  have e4 : ((0 : ℝ) - 2) / -1 = 2 := by norm_num
  simp only [e1, e2, e3, e4]
  have hi : (⟨0, 0, ((archDem b zlo zhi val).w : ℝ), ((archDem b zlo zhi val).h : ℝ)⟩ : RWin ℝ).inter ⟨b + 1 - k, 1, 2, 2⟩ =
      .ok ⟨b + 1 - k, 1, 2, 2⟩ := by
    have hw : ((archDem b zlo zhi val).w : ℝ) = b + 4 := by simp [archDem]
    have hh : ((archDem b zlo zhi val).h : ℝ) = 4 := by simp [archDem]
    simp only [RWin.inter, hw, hh, zero_add]
    have m1 : max (0 : ℝ) (b + 1 - k) = b + 1 - k := max_eq_right (by linarith)
    have m2 : min ((b : ℝ) + 4) (b + 1 - k + 2) = b + 1 - k + 2 := min_eq_right (by linarith)
    rw [m1, m2, if_neg (by push Not; constructor <;> [linarith; norm_num])]
    congr 2
    all_goals norm_num
  rw [hi]
  simp only [expandWindowToGrid]
  have c : ((b : ℝ) + 1 - k) = (((b : ℤ) + 1 - k : ℤ) : ℝ) := by push_cast; ring
  rw [c]
  simp

theorem arch_middle (zlo zhi : ℝ) (b : ℕ) : (b : ℝ) * (((zlo + zhi) / 2 - (zlo + zhi) / 2) / ((zhi - zlo) / 2)) ^ 2 = ((0 : ℕ) : ℝ) := by
  simp

theorem arch_ends (zlo zhi : ℝ) (h : zlo < zhi) (b : ℕ) : (b : ℝ) * ((zlo - (zlo + zhi) / 2) / ((zhi - zlo) / 2)) ^ 2 = (b : ℝ) ∧
    (b : ℝ) * ((zhi - (zlo + zhi) / 2) / ((zhi - zlo) / 2)) ^ 2 = (b : ℝ) := by
  have hd : (zhi - zlo) / 2 ≠ 0 := by linarith
  have e1 : (zlo - (zlo + zhi) / 2) / ((zhi - zlo) / 2) = -1 := by rw [div_eq_iff hd]; ring
  have e2 : (zhi - (zlo + zhi) / 2) / ((zhi - zlo) / 2) = 1 := by rw [div_eq_iff hd]; ring
  rw [e1, e2]
  norm_num

/-- C106: the crop can end in `WindowError`, which no caller expects, for RPC cameras with rays that turn, though the DEM covers all ground
that the camera sees: for each range of elevations that is searched, and a shift of any `b` from two pixels between the middle and the ends
of the range.  GDAL's inverse is exact and the DEM level, at the middle of the range. -/
theorem C106_rpc_error_fails (b : ℕ) (hb : 2 ≤ b) (zlo zhi : ℝ) (h : zlo < zhi) :
    ∃ (inv : ℝ × ℝ → ℝ → ℝ × ℝ) (r : Rpc ℝ) (d : DemIn ℝ) (m : ℝ), RpcDem inv none (3, 3) d ∧ (∀ p z, RightAt inv r none p z) ∧
      FindsAll inv none r (3, 3) zlo zhi ∧ d.zlo = zlo ∧ d.zhi = zhi ∧ zlo < m ∧ m < zhi ∧ d.crsEqual = true ∧
      (∀ x y e, d.zmap x y (some e) = e) ∧ (∀ row col, d.val row col = some m) ∧
      (∀ p, InIm (3, 3) p → ∃ u v : ℝ, 0 < u ∧ u < d.w ∧ 0 < v ∧ v < d.h ∧
        worldToPixel none r [flPt ((d.t.apply u v).1, (d.t.apply u v).2, m)] = pix [p]) ∧
      initDem d = .error .windowError := by
  have hd : (zhi - zlo) / 2 ≠ 0 := by linarith
  refine ⟨_, archRpc b ((zlo + zhi) / 2) ((zhi - zlo) / 2), archDem b zlo zhi fun _ => (zlo + zhi) / 2, (zlo + zhi) / 2, arch_dem b zlo zhi _,
    fun p z => arch_right _ _ _ hd p z, arch_all _ _ _ hd _ _ _, rfl, rfl, by linarith, by linarith, rfl, fun _ _ _ => rfl, fun _ _ => rfl,
    fun p hp => ?_, ?_⟩
  · obtain ⟨p1, p2, p3, p4⟩ := hp
    norm_num at p2 p4
    refine ⟨p.1 + b + 1, 3 - p.2, by positivity, ?_, by linarith, ?_, ?_⟩
    · simp only [archDem]; push_cast; linarith
    · simp only [archDem]; push_cast; linarith
    · rw [arch_pixel _ _ _ hd]
      simp only [archDem, Affine.apply, pix, List.map_cons, List.map_nil]
      simp
  · have e := arch_ends zlo zhi h b
    unfold initDem
    rw [show (archDem b zlo zhi fun _ => (zlo + zhi) / 2).zlo = zlo from rfl, show (archDem b zlo zhi fun _ => (zlo + zhi) / 2).zhi = zhi from rfl,
      arch_win b zlo zhi _ zlo zhi b le_rfl e.1 e.2, ok_bind]
    have hz : ∀ win, demZs (archDem b zlo zhi fun _ => (zlo + zhi) / 2) win = [(zlo + zhi) / 2, (zlo + zhi) / 2] := fun win => rfl
    rw [hz, arch_win b zlo zhi _ _ _ 0 (by omega) (arch_middle zlo zhi b) (arch_middle zlo zhi b), ok_bind]
    have : interI ⟨(b : ℤ) + 1 - (0 : ℕ), 1, 2, 2⟩ ⟨(b : ℤ) + 1 - b, 1, 2, 2⟩ = .error .windowError := by
      unfold interI
      rw [if_pos]
      left
      simp only [ge_iff_le]
      push_cast
      omega
    rw [this, error_bind]

/-- C106: the crop can lose ground that is seen, for RPC cameras with rays that turn: for each range of elevations that is searched, and a
shift of any `b` from two pixels between the middle and the ends of the range, there is a DEM with elevations in the range, that has a pixel
of which the camera sees all, and that is outside of the cropped DEM.  GDAL's inverse is exact. -/
theorem C106_rpc_fails (b : ℕ) (hb : 2 ≤ b) (zlo zhi : ℝ) (h : zlo < zhi) :
    ∃ (inv : ℝ × ℝ → ℝ → ℝ × ℝ) (r : Rpc ℝ) (d : DemIn ℝ) (o : DemOut ℝ) (m : ℝ) (row col : ℕ), RpcDem inv none (3, 3) d ∧
      (∀ p z, RightAt inv r none p z) ∧
      FindsAll inv none r (3, 3) zlo zhi ∧ d.zlo = zlo ∧ d.zhi = zhi ∧ zlo < m ∧ m < zhi ∧ d.crsEqual = true ∧
      (∀ x y e, d.zmap x y (some e) = e) ∧ (∀ row col x, d.val row col = some x → zlo ≤ x ∧ x ≤ zhi) ∧ row < d.h ∧ col < d.w ∧
      d.val row col = some m ∧ initDem d = .ok o ∧ ∀ u v : ℝ, col < u → u < col + 1 → row < v → v < row + 1 →
        RpcSees none r (3, 3) d u v m ∧ ∀ u' v' : ℝ, 0 ≤ u' → u' ≤ o.w → 0 ≤ v' → v' ≤ o.h → o.t.apply u' v' ≠ d.t.apply u v := by
  have hd : (zhi - zlo) / 2 ≠ 0 := by linarith
  set f : ℕ → ℝ := fun col => if col ≤ 2 then zhi else (zlo + zhi) / 2 with hf
  have e := arch_ends zlo zhi h b
  have w1 := arch_win b zlo zhi f zlo zhi b le_rfl e.1 e.2
  have hz : demZs (archDem b zlo zhi f) ⟨(b : ℤ) + 1 - b, 1, 2, 2⟩ = [zhi, zhi] := by
    obtain ⟨lo, hi, -, l2, -, h2, hzs, -⟩ := C54_extremes (archDem b zlo zhi f) _ w1
    have rd : ∀ ij : ℕ × ℕ, (ij.2 : ℤ) < 2 → readWin (archDem b zlo zhi f) ⟨(b : ℤ) + 1 - b, 1, 2, 2⟩ ij.1 ij.2 = some zhi := by
      intro ij h
      simp only [readWin, archDem, hf]
      rw [if_pos (by omega)]
    rw [hzs, List.map_cons, List.map_cons, List.map_nil, rd lo l2, rd hi h2]
    rfl
  have hi : interI ⟨(b : ℤ) + 1 - b, 1, 2, 2⟩ ⟨(b : ℤ) + 1 - b, 1, 2, 2⟩ = .ok ⟨1, 1, 2, 2⟩ := by
    have : (b : ℤ) + 1 - b = 1 := by ring
    rw [this]
    rfl
  refine ⟨_, archRpc b ((zlo + zhi) / 2) ((zhi - zlo) / 2), archDem b zlo zhi f, cropDem (archDem b zlo zhi f) ⟨(b : ℤ) + 1 - b, 1, 2, 2⟩ ⟨1, 1, 2, 2⟩,
    (zlo + zhi) / 2, 2, b + 2, arch_dem b zlo zhi _, fun p z => arch_right _ _ _ hd p z, arch_all _ _ _ hd _ _ _, rfl, rfl, by linarith,
    by linarith, rfl, fun _ _ _ => rfl, ?_, by simp [archDem], by simp [archDem], ?_, ?_, ?_⟩
  · intro row col x hx
    simp only [archDem, hf, Option.some.injEq] at hx
    rw [← hx]
    split_ifs <;> constructor <;> linarith
  · simp only [archDem, hf]
    rw [if_neg (by omega)]
  · unfold initDem
    rw [show (archDem b zlo zhi f).zlo = zlo from rfl, show (archDem b zlo zhi f).zhi = zhi from rfl, w1, ok_bind, hz,
      arch_win b zlo zhi f zhi zhi b le_rfl e.2 e.2, ok_bind, hi, ok_bind]
  · intro u v h1 h2 h3 h4
    push_cast at h1 h2 h3 h4
    have hb' : (2 : ℝ) ≤ b := by exact_mod_cast hb
    refine ⟨⟨(u - b - 1, 3 - v), ⟨by simp only; linarith, by norm_num; linarith, by simp only; linarith, by norm_num; linarith⟩, ?_⟩, ?_⟩
    · show worldToPixel none _ _ = _
      rw [arch_pixel _ _ _ hd]
      simp only [archDem, Affine.apply, pix, List.map_cons, List.map_nil]
      simp
      constructor <;> ring
    · intro u' v' g1 g2 g3 g4 he
      have hx := congrArg Prod.fst he
      have hg2 : u' ≤ 2 := by simpa [cropDem] using g2
      simp only [cropDem, Affine.window_apply] at hx
      simp only [archDem, Affine.apply] at hx
      push_cast at hx
      linarith

/-- A DEM of 40 x 10 pixels with elevations from 1 to 2, under the camera `bowRpc 4`. -/
def bowDem (val : ℕ → ℕ → ℝ) : DemIn ℝ where
  t := ⟨1, 0, -30, 0, -1, 5⟩
  w := 40
  h := 10
  val r c := some (val r c)
  crsEqual := true
  tb := .ok
  boundary z := .ok ((boundary8 (3, 3)).map fun p => (p.1 - 4 * z ^ 2, p.2))
  zlo := 1
  zhi := 2
  zmap _ _ e := e.getD 0
  f32 x := x

/-- `C106_rpc_partial` for a camera with tilted rays that bend (the ground of pixel (j, i) at the height z is at (j - 4 z², i)), and heights
from 1 to 2, at which the rays do not turn. -/
example (o : DemOut ℝ) (val : ℕ → ℕ → ℝ) (hval : ∀ r c, 1 ≤ val r c ∧ val r c ≤ 2) (d : DemIn ℝ) (hd : d = bowDem val)
    (ho : initDem d = .ok o) (row col : ℕ) (hrow : row < 10) (hcol : col < 40) (u v : ℝ)
    (hu : col < u ∧ u < col + 1) (hv : row < v ∧ v < row + 1) (hs : RpcSees none (bowRpc 4) (3, 3) d u v (val row col)) :
    ∃ row' col' : ℕ, row' < o.h ∧ col' < o.w ∧ o.arr row' col' = some (val row col) := by
  have hg : ∀ (p : ℝ × ℝ) (z : ℝ), Ground (bowInv 4) none p z (p.1 - 4 * z ^ 2, p.2, z) := by
    intro p z
    simp [Ground, bowInv]
  have hb : RpcDem (bowInv 4) none (3, 3) d := by
    intro z Xs h
    obtain ⟨Ys, e1, e2, -⟩ := C108_elevation (bowInv 4) none (bowRpc 4) (3, 3) none _ (default_boundary (3, 3)) z fun p _ => bow_right 4 p z
    have hXY : Xs = Ys := by
      rw [h, Except.ok.injEq] at e1
      have inj : Function.Injective flPt := by
        intro X Y hXY
        simp only [flPt, Prod.mk.injEq, Fl.val.injEq] at hXY
        exact Prod.ext hXY.1 (Prod.ext hXY.2.1 hXY.2.2)
      exact inj.list_map e1
    subst hXY
    have : Xs = (boundary8 (3, 3)).map fun p => (p.1 - 4 * z ^ 2, p.2, z) := by
      rw [← List.forall₂_eq_eq_eq, List.forall₂_map_right_iff]
      exact e2.imp fun X p hX => Ground.unique hX.2 (hg p z)
    rw [hd, this, List.map_map]
    rfl
  have steady : ∀ p : ℝ × ℝ, Steady (fun z => p.1 - 4 * z ^ 2) 1 2 := fun p => .inr fun a ha b hb hab => by
    simp only
    nlinarith [ha.1, hb.1]
  have hzlo : d.zlo = 1 := by rw [hd]; rfl
  have hzhi : d.zhi = 2 := by rw [hd]; rfl
  obtain ⟨row', col', h1, h2, h3, -⟩ := C106_rpc_partial (bowInv 4) none (bowRpc 4) (3, 3) (by norm_num) (by norm_num) d hb (.inl (by rw [hd]; rfl)) id monotone_id
    (fun x y e => by rw [hd]; rfl) (fun row col x hx => by
      rw [hd] at hx ⊢
      simp only [bowDem, Option.some.injEq] at hx
      rw [← hx]
      exact hval row col)
    (fun p _ z _ _ => bow_right 4 p z) (fun p _ z _ _ x y hp => by
      rw [show (none : Option Warps).map Prod.snd = none from rfl, C29_pointwise] at hp
      have he := evalPoint_val (bowRpc 4) (x, y, z) (by
        refine ⟨?_, ?_, ?_, ?_, ?_⟩
        · simp [bowRpc]
        · simp [bowRpc]
        · simp [bowRpc]
        · rw [← C29_poly]; simp [poly, bowRpc]
        · rw [← C29_poly]; simp [poly, bowRpc])
      simp only [List.map_cons, List.map_nil, toRpcCrs, flPt, pix] at hp
      rw [he] at hp
      simp only [List.cons.injEq, Prod.mk.injEq, Fl.val.injEq, and_true] at hp
      obtain ⟨g1, g2⟩ := hp
      simp [project, normXyz, poly, bowRpc] at g1 g2
      refine Prod.ext ?_ (Prod.ext ?_ rfl)
      · simp only [bowInv]; rw [← g1]; ring
      · simp only [bowInv]; rw [← g2]; ring)
    (fun p z => (p.1 - 4 * z ^ 2, p.2, z)) (fun p _ z _ _ => hg p z)
    (by
      rw [hzlo, hzhi]
      exact ⟨fun i z _ _ _ _ => .inl fun a _ b _ hab => by simpa using hab, fun j z _ _ _ _ => .inl fun a _ b _ _ => le_rfl, fun p _ => steady p⟩)
    (by
      rw [hzlo, hzhi]
      exact ⟨fun i z _ _ _ _ => .inl fun a _ b _ hab => le_rfl, fun j z _ _ _ _ => .inl fun a _ b _ hab => hab, fun p _ => .inl fun a _ b _ _ => le_rfl⟩)
    o ho row col (by rw [hd]; exact hrow) (by rw [hd]; exact hcol) (val row col) (by rw [hd]; rfl) u v hu hv hs
  refine ⟨row', col', h1, h2, ?_⟩
  rw [h3, hd]
  rfl

end

end Verif.Dem
