import Verif.Ortho.Process

/-!
# C125: the origin and unit of world coordinates
-/

set_option autoImplicit false
set_option linter.unusedSectionVars false

namespace Verif.Moved

open Verif.Ortho Verif.Dem Verif.Common Verif.Tiles Verif.Files Verif.OrthoProcess
open Res (ok_bind error_bind)

variable {K Src : Type} [Field K] [LinearOrder K] [IsStrictOrderedRing K] [FloorRing K]

/-! ## Specification -/

/-- A change of world coordinates: another unit of length, and another origin. -/
structure Move (K : Type) [Field K] [LinearOrder K] where
  s : K
  dx : K
  dy : K
  dz : K
  pos : 0 < s

namespace Move

/-- New coordinates of an (x, y) point. -/
def xy (μ : Move K) (p : K × K) : K × K := (μ.s * p.1 + μ.dx, μ.s * p.2 + μ.dy)

/-- New coordinate of an elevation. -/
def z (μ : Move K) (e : K) : K := μ.s * e + μ.dz

/-- New coordinate of an elevation that may be NaN. -/
def pz (μ : Move K) (e : Pix K) : Pix K := e.map μ.z

/-- New coordinates of an image transform. -/
def tr (μ : Move K) (t : Affine K) : Affine K := ⟨μ.s * t.a, μ.s * t.b, μ.s * t.c + μ.dx, μ.s * t.d, μ.s * t.e, μ.s * t.f + μ.dy⟩

/-- New coordinates of bounds. -/
def bnds (μ : Move K) (b : Bnds K) : Bnds K := ⟨μ.s * b.left + μ.dx, μ.s * b.bottom + μ.dy, μ.s * b.right + μ.dx, μ.s * b.top + μ.dy⟩

/-- New coordinates of a DEM. -/
def dem (μ : Move K) (d : DemOut K) : DemOut K := ⟨fun i j => μ.pz (d.arr i j), d.h, d.w, μ.tr d.t⟩

/-- New length of a pair of lengths. -/
def len (μ : Move K) (r : K × K) : K × K := (μ.s * r.1, μ.s * r.2)

end Move

/-- The `_get_init_dem` of the same camera and DEM in other coordinates: with `same` the DEM is in the ortho CRS, and has the other coordinates too,
else the DEM stays in its own CRS. -/
structure DemMoved (μ : Move K) (d d' : DemIn K) : Prop where
  size : d'.w = d.w ∧ d'.h = d.h
  crs : d'.crsEqual = d.crsEqual
  boundary : ∀ z, d'.boundary (μ.z z) = (d.boundary z).map (List.map μ.xy)
  zlo : d'.zlo = μ.z d.zlo
  zhi : d'.zhi = μ.z d.zhi
  same : d.crsEqual = true → d'.t = μ.tr d.t ∧ (∀ i j, d'.val i j = μ.pz (d.val i j)) ∧
    (∀ x y e, d'.zmap (μ.xy (x, y)).1 (μ.xy (x, y)).2 (μ.pz e) = μ.z (d.zmap x y e)) ∧
    ∀ i j e, d.val i j = some e → d'.f32 (μ.z e) = μ.z (d.f32 e)
  other : d.crsEqual = false → d'.t = d.t ∧ d'.val = d.val ∧ d'.f32 = d.f32 ∧ (∀ x y e, d'.zmap x y e = μ.z (d.zmap x y e)) ∧
    ∀ b, d'.tb (μ.bnds b) = d.tb b

/-- The `Ortho` object `o'` of the same image and DEM as `o`, in other world coordinates: the footprint of the camera on a DEM, and what rasterio
reprojects, are the same in other coordinates. -/
structure RestMoved (μ : Move K) (o o' : Obj K Src) (m m' : Mem K) : Prop where
  kind : o'.frame = o.frame ∧ o'.distort = o.distort ∧ o'.pinhole = o.pinhole
  image : o'.read = o.read ∧ o'.srcErr = o.srcErr ∧ o'.srcH = o.srcH ∧ o'.srcW = o.srcW ∧ o'.count = o.count ∧ o'.srcDtype = o.srcDtype ∧
    o'.colors = o.colors
  libs : o'.fillPoly = o.fillPoly ∧ o'.info = o.info ∧ o'.blank = o.blank
  gsd : o'.gsd = μ.s * o.gsd
  orthoSize : o'.orthoSize = μ.len o.orthoSize
  crs : o'.crsEqual = o.crsEqual
  dem : o'.dem.load m' = if o.crsEqual then μ.dem (o.dem.load m) else o.dem.load m
  reproject : ∀ i res, o'.reproject i (μ.len res) (o'.dem.load m') = μ.dem (o.reproject i res (o.dem.load m))
  poly : ∀ i d, o'.poly i (μ.dem d) = (o.poly i d).map μ.xy

/-- The `Ortho` object `o'` of the same image, camera and DEM as `o`, in other world coordinates: the camera sees each point at the same pixel. -/
structure ObjMoved (μ : Move K) (o o' : Obj K Src) (m m' : Mem K) : Prop extends RestMoved μ o o' m m' where
  cam : ∀ i x y e, (o'.cam i).w2p (some (μ.xy (x, y)).1) (some (μ.xy (x, y)).2) (μ.pz e) = (o.cam i).w2p (some x) (some y) e
  samp : ∀ i, (o'.cam i).samp = (o.cam i).samp ∧ (o'.cam i).f32 = (o.cam i).f32

/-- The arguments of `process` in other coordinates. -/
def Move.args (μ : Move K) (a : Args K) : Args K := { a with resolution := a.resolution.map μ.len }

/-- An ortho image in other coordinates: the same pixels, with another transform and CRS. -/
def Move.file (μ : Move K) (crs : String) (f : OrthoFile K) : OrthoFile K := { f with transform := μ.tr f.transform, crs := crs }

/-! ## `_get_init_dem` -/

theorem lmin_move (s c x : K) (hs : 0 < s) (l : List K) : lmin (s * x + c) (l.map fun y => s * y + c) = s * lmin x l + c := by
  unfold lmin
  induction l generalizing x with
  | nil => rfl
  | cons y l ih =>
    simp only [List.map_cons, List.foldl_cons]
    rw [min_add_add_right, ← mul_min_of_nonneg _ _ hs.le]
    exact ih _

theorem lmax_move (s c x : K) (hs : 0 < s) (l : List K) : lmax (s * x + c) (l.map fun y => s * y + c) = s * lmax x l + c := by
  unfold lmax
  induction l generalizing x with
  | nil => rfl
  | cons y l ih =>
    simp only [List.map_cons, List.foldl_cons]
    rw [max_add_add_right, ← mul_max_of_nonneg _ _ hs.le]
    exact ih _

theorem boundsOf_move (μ : Move K) (l : List (K × K)) : boundsOf (l.map μ.xy) = (boundsOf l).map μ.bnds := by
  cases l with
  | nil => rfl
  | cons p l =>
    have e1 : (l.map μ.xy).map Prod.fst = (l.map Prod.fst).map fun y => μ.s * y + μ.dx := by simp [Move.xy]
    have e2 : (l.map μ.xy).map Prod.snd = (l.map Prod.snd).map fun y => μ.s * y + μ.dy := by simp [Move.xy]
    show Except.ok _ = Except.ok _
    simp only [e1, e2, Move.bnds, Move.xy, lmin_move _ _ _ μ.pos, lmax_move _ _ _ μ.pos]

theorem tr_det (μ : Move K) (t : Affine K) : (μ.tr t).det = μ.s ^ 2 * t.det := by
  simp only [Move.tr, Affine.det]; ring

/-- Pixel coordinates of a point do not depend on world coordinates. -/
theorem inv_move (μ : Move K) (t : Affine K) (x y : K) : (μ.tr t).inv.apply (μ.s * x + μ.dx) (μ.s * y + μ.dy) = t.inv.apply x y := by
  have hs := μ.pos.ne'
  by_cases hd : t.det = 0
  · have hd' : (μ.tr t).det = 0 := by rw [tr_det, hd, mul_zero]
    simp [Affine.inv, Affine.apply, hd, hd']
  · have hd' : (μ.tr t).det = μ.s ^ 2 * t.det := tr_det μ t
    simp only [Affine.inv, Affine.apply, hd']
    simp only [Move.tr, Prod.mk.injEq]
    constructor <;> field_simp <;> ring

theorem fromBounds_move (μ : Move K) (t : Affine K) (b : Bnds K) : fromBounds (μ.tr t) (μ.bnds b) = fromBounds t b := by
  have hs := μ.pos.ne'
  have h1 : ((μ.bnds b).right - (μ.bnds b).left) / (μ.tr t).a = (b.right - b.left) / t.a := by
    simp only [Move.bnds, Move.tr]
    rw [← mul_div_mul_left _ t.a hs]
    congr 1; ring
  have h2 : ((μ.bnds b).bottom - (μ.bnds b).top) / (μ.tr t).e = (b.bottom - b.top) / t.e := by
    simp only [Move.bnds, Move.tr]
    rw [← mul_div_mul_left _ t.e hs]
    congr 1; ring
  have h3 : ((μ.tr t).a = 0 ∨ (μ.tr t).e = 0) = (t.a = 0 ∨ t.e = 0) := by simp [Move.tr, hs]
  have h4 : ((μ.tr t).det = 0) = (t.det = 0) := by simp [tr_det, hs]
  unfold fromBounds
  simp only [h1, h2, h3, h4]
  simp only [Move.bnds, inv_move]

theorem window_move (μ : Move K) (t : Affine K) (c r : K) : (μ.tr t).window c r = μ.tr (t.window c r) := by
  ext <;> simp only [Move.tr, Affine.window, Affine.mul, Affine.translation, Affine.apply] <;> ring

theorem apply_move (μ : Move K) (t : Affine K) (x y : K) : (μ.tr t).apply x y = μ.xy (t.apply x y) := by
  simp only [Move.tr, Affine.apply, Move.xy, Prod.mk.injEq]
  constructor <;> ring

theorem z_lt (μ : Move K) (a b : K) : μ.z a < μ.z b ↔ a < b := by
  unfold Move.z
  constructor
  · intro h; exact lt_of_mul_lt_mul_left (by linarith) μ.pos.le
  · intro h; have := mul_lt_mul_of_pos_left h μ.pos; linarith

theorem z_le (μ : Move K) (a b : K) : μ.z a ≤ μ.z b ↔ a ≤ b := by
  rw [← not_lt, z_lt, not_lt]

theorem lessM_move (μ : Move K) (a b : Pix K) : lessM (μ.pz a) (μ.pz b) = lessM a b := by
  cases a <;> cases b <;> simp [lessM, Move.pz, z_lt]

theorem moreM_move (μ : Move K) (a b : Pix K) : moreM (μ.pz a) (μ.pz b) = moreM a b := by
  cases a <;> cases b <;> simp [moreM, Move.pz, z_lt]

theorem argBest_move (better : Pix K → Pix K → Bool) (f g : ℕ × ℕ → Pix K) (h : ∀ p q, better (g p) (g q) = better (f p) (f q)) (cells : List (ℕ × ℕ)) :
    argBest better g cells = argBest better f cells := by
  unfold argBest
  simp only [h]

theorem stack_move {μ : Move K} {d d' : DemIn K} (h : DemMoved μ d d') (zs : List K) :
    stackBoundary d'.boundary (zs.map μ.z) = (stackBoundary d.boundary zs).map (List.map μ.xy) := by
  induction zs with
  | nil => rfl
  | cons z zs ih =>
    simp only [List.map_cons, stackBoundary, h.boundary, ih]
    cases d.boundary z with
    | error e => rfl
    | ok p =>
      cases stackBoundary d.boundary zs with
      | error e => rfl
      | ok q =>
        show Except.ok _ = Except.ok _
        simp

theorem win_move {μ : Move K} {d d' : DemIn K} (h : DemMoved μ d d') (zs : List K) : winAtZs d' (zs.map μ.z) = winAtZs d zs := by
  unfold winAtZs demBounds
  rw [stack_move h, h.crs, h.size.1, h.size.2]
  cases stackBoundary d.boundary zs with
  | error e => rfl
  | ok pts =>
    show (boundsOf (pts.map μ.xy) >>= _) >>= _ = (boundsOf pts >>= _) >>= _
    rw [boundsOf_move]
    cases boundsOf pts with
    | error e => rfl
    | ok b =>
      cases hc : d.crsEqual with
      | true =>
        show (fromBounds d'.t (μ.bnds b) >>= _) = (fromBounds d.t b >>= _)
        rw [(h.same hc).1, fromBounds_move]
      | false =>
        show (d'.tb (μ.bnds b) >>= _) = (d.tb b >>= _)
        rw [(h.other hc).2.2.2.2, (h.other hc).1]

theorem demZs_move {μ : Move K} {d d' : DemIn K} (h : DemMoved μ d d') (win : IWin) : demZs d' win = (demZs d win).map μ.z := by
  cases hc : d.crsEqual with
  | true =>
    obtain ⟨ht, hv, hz, -⟩ := h.same hc
    have hr : readWin d' win = fun r c => μ.pz (readWin d win r c) := by
      funext r c; exact hv _ _
    have ha1 := fun cells => argBest_move lessM (fun p => readWin d win p.1 p.2) (fun p => μ.pz (readWin d win p.1 p.2)) (fun p q => lessM_move μ _ _) cells
    have ha2 := fun cells => argBest_move moreM (fun p => readWin d win p.1 p.2) (fun p => μ.pz (readWin d win p.1 p.2)) (fun p q => moreM_move μ _ _) cells
    simp only [demZs, hr, ht, window_move, apply_move, List.map_cons, List.map_nil, ha1, ha2]
    simp only [hz]
  | false =>
    obtain ⟨ht, hv, -, hz, -⟩ := h.other hc
    have hr : readWin d' win = readWin d win := by
      funext r c; simp [readWin, hv]
    simp only [demZs, hr, ht, hz, List.map_cons, List.map_nil]

/-- C125: the DEM that an `Ortho` object reads does not depend on the origin and unit of world coordinates: it is the same part of the file, or the same
exception. -/
theorem C125_dem {μ : Move K} {d d' : DemIn K} (h : DemMoved μ d d') :
    initDem d' = (initDem d).map fun o => if d.crsEqual then μ.dem o else o := by
  have h1 : winAtZs d' [d'.zlo, d'.zhi] = winAtZs d [d.zlo, d.zhi] := by
    rw [h.zlo, h.zhi]; exact win_move h [d.zlo, d.zhi]
  have h2 : ∀ win, winAtZs d' (demZs d' win) = winAtZs d (demZs d win) := fun win => by rw [demZs_move h, win_move h]
  unfold initDem
  rw [h1]
  cases winAtZs d [d.zlo, d.zhi] with
  | error e => rfl
  | ok first =>
    simp only [ok_bind, h2]
    cases winAtZs d (demZs d first) with
    | error e => rfl
    | ok win =>
      simp only [ok_bind]
      cases interI win first with
      | error e => rfl
      | ok win' =>
        show Except.ok _ = Except.ok _
        congr 1
        cases hc : d.crsEqual with
        | true =>
          obtain ⟨ht, hv, -, hf⟩ := h.same hc
          simp only [cropDem, Move.dem, if_true, ht, window_move, DemOut.mk.injEq, and_true]
          funext r c
          simp only [readWin, hv]
          generalize hq : d.val _ _ = q
          cases q with
          | none => rfl
          | some e => exact congrArg some (hf _ _ e hq)
        | false =>
          obtain ⟨ht, hv, hf, -⟩ := h.other hc
          simp [cropDem, ht, hf, readWin, hv]

/-! ## `process` -/

variable {p p' : RemapIn K Src}

/-- Remapping depends on its inputs through the tiles that are computed. -/
structure SameTiles (p p' : RemapIn K Src) : Prop where
  out : p'.out = p.out
  count : p'.count = p.count
  mask : p'.writeMask = p.writeMask
  tile : ∀ w₀ ix w, computeTile p' w₀ ix w = computeTile p w₀ ix w

theorem writeMask_same (h : SameTiles p p') (im : OrthoIm K) (ix : List ℕ) (w : Win) (t : Tile K) : writeMask p' im ix w t = writeMask p im ix w t := by
  unfold writeMask
  rw [h.mask, h.count]

theorem step_same (h : SameTiles p p') {w₀ : Win} {wins : List Win} {ix : List ℕ} {s t : Pool K} (hs : Step p w₀ wins ix s t) :
    Step p' w₀ wins ix s t := by
  cases hs with
  | compute i w t h1 h2 h3 => exact .compute s i w t h1 h2 ((h.tile _ _ _).trans h3)
  | fail i w e h1 h2 h3 => exact .fail s i w e h1 h2 ((h.tile _ _ _).trans h3)
  | acquire i t h1 h2 => exact .acquire s i t h1 h2
  | data i w t h1 h2 h3 => exact .data s i w t h1 h2 h3
  | mask i w t h1 h2 h3 => rw [← writeMask_same h]; exact .mask s i w t h1 h2 h3

theorem steps_same (h : SameTiles p p') {w₀ : Win} {wins : List Win} {ix : List ℕ} {s t : Pool K} (hs : Steps p w₀ wins ix s t) :
    Steps p' w₀ wins ix s t := by
  induction hs with
  | refl => exact .refl _
  | tail _ h2 ih => exact .tail ih (step_same h h2)

theorem batch_same (h : SameTiles p p') {w₀ : Win} {wins : List Win} {ix : List ℕ} {im : OrthoIm K} {r : Res (OrthoIm K)}
    (hb : Batch p w₀ wins ix im r) : Batch p' w₀ wins ix im r := by
  cases hb with
  | ok s h1 h2 => exact .ok s (steps_same h h1) h2
  | error s i e h1 h2 h3 => exact .error s i e (steps_same h h1) h2 h3

theorem batches_same (h : SameTiles p p') {w₀ : Win} {wins : List Win} {l : List (List ℕ)} {im : OrthoIm K} {r : Res (OrthoIm K)}
    (hb : Batches p w₀ wins l im r) : Batches p' w₀ wins l im r := by
  induction hb with
  | nil => exact .nil _
  | cons h1 _ ih => exact .cons (batch_same h h1) ih
  | stop h1 => exact .stop (batch_same h h1)

theorem remap_same (h : SameTiles p p') {pb : Bool} {im : OrthoIm K} {r : Res (OrthoIm K)} (hr : Remap p pb im r) : Remap p' pb im r := by
  cases hr with
  | run h1 h2 => exact .run (by rw [h.out]; exact h1) (by rw [h.count]; exact batches_same h h2)
  | empty h1 => exact .empty (by rw [h.out]; exact h1)
  | block h1 => exact .block (by rw [h.out]; exact h1)

theorem fstep_same (h : SameTiles p p') {w₀ : Win} {wins : List Win} {ix : List ℕ} {s t : Pool K} (hs : FStep p w₀ wins ix s t) :
    FStep p' w₀ wins ix s t := by
  cases hs with
  | step h1 => exact .step (step_same h h1)
  | die i e h1 h2 => exact .die s i e h1 h2
  | dieData i w t part e h1 h2 h3 => exact .dieData s i w t part e h1 h2 h3
  | dieMask i w t part e h1 h2 h3 =>
    have := FStep.dieMask (p := p') (w₀ := w₀) (indexes := ix) s i w t part e h1 h2 h3
    rwa [writeMask_same h] at this

theorem fsteps_same (h : SameTiles p p') {w₀ : Win} {wins : List Win} {ix : List ℕ} {s t : Pool K} (hs : FSteps p w₀ wins ix s t) :
    FSteps p' w₀ wins ix s t := by
  induction hs with
  | refl => exact .refl _
  | tail _ h2 ih => exact .tail ih (fstep_same h h2)

theorem moments_same (h : SameTiles p p') {w₀ : Win} {wins : List Win} {l : List (List ℕ)} {im im' : OrthoIm K}
    (hm : Moments p w₀ wins l im im') : Moments p' w₀ wins l im im' := by
  induction hm with
  | start => exact .start _ _
  | here s h1 => exact .here s (fsteps_same h h1)
  | later s h1 h2 _ ih => exact .later s (fsteps_same h h1) h2 ih

theorem moment_same (h : SameTiles p p') {pb : Bool} {im im' : OrthoIm K} (hm : Moment p pb im im') : Moment p' pb im im' := by
  cases hm with
  | before => exact .before
  | during h1 h2 => exact .during (by rw [h.out]; exact h1) (by rw [h.count]; exact moments_same h h2)

variable {μ : Move K} {o o' : Obj K Src} {m m' : Mem K}

theorem res_move (h : ObjMoved μ o o' m m') (a : Args K) : resolutionOf o' (μ.args a) = μ.len (resolutionOf o a) := by
  unfold resolutionOf Move.args
  cases a.resolution with
  | none => simp [h.gsd, Move.len]
  | some r => rfl

theorem pz_isSome (μ : Move K) (e : Pix K) : (μ.pz e).isSome = e.isSome := by cases e <;> rfl

theorem tr_mul (μ : Move K) (t u : Affine K) : (μ.tr t).mul u = μ.tr (t.mul u) := by
  ext <;> simp only [Move.tr, Affine.mul] <;> ring

theorem polyJi_move (μ : Move K) (n n' : MaskIn K) (ht : n'.t = μ.tr n.t) (hp : n'.poly = n.poly.map μ.xy) : polyJi n' = polyJi n := by
  unfold polyJi
  rw [ht, hp, tr_mul, List.map_map]
  refine List.map_congr_left fun q _ => ?_
  simp only [Function.comp, Move.xy, inv_move]

theorem maskDem_move (μ : Move K) (n n' : MaskIn K) (ht : n'.t = μ.tr n.t) (hp : n'.poly = n.poly.map μ.xy) (hh : n'.h = n.h) (hw : n'.w = n.w)
    (hf : n'.fillPoly = n.fillPoly) (ha : n'.arr = fun i j => μ.pz (n.arr i j)) (crop mask : Bool) :
    maskDem n' crop mask = (maskDem n crop mask).map fun q => ⟨μ.dem q.out, q.warned, fun i j => μ.pz (q.input i j)⟩ := by
  have hpj := polyJi_move μ n n' ht hp
  have hdm : demMask n' = demMask n := by
    funext r c
    simp only [demMask, hpj, hf, ha, pz_isSome]
  have hr : maskRows n' = maskRows n := by simp only [maskRows, hh, hw, hdm]
  have hcl : maskCols n' = maskCols n := by simp only [maskCols, hh, hw, hdm]
  have hnc : notCovered n' = notCovered n := by simp only [notCovered, hh, hw, hpj, hf, ha, pz_isSome]
  unfold maskDem
  simp only [hr, hcl, hdm, hnc, hh, hw, ht, ha]
  by_cases h0 : (maskRows n).isEmpty = true
  · rw [if_pos h0, if_pos h0]; rfl
  rw [if_neg h0, if_neg h0]
  show Except.ok _ = Except.ok _
  simp only [Move.dem, Except.ok.injEq, MaskOut.mk.injEq, DemOut.mk.injEq, true_and]
  refine ⟨⟨?_, ?_⟩, ?_⟩
  · funext r c
    split_ifs <;> rfl
  · cases crop
    · rfl
    · simp only [if_true, tr_mul]
  · funext r c
    split_ifs <;> rfl

/-- The DEM that `process` makes, in other coordinates. -/
theorem processDem_move (h : ObjMoved μ o o' m m') (a : Args K) :
    (processDem o'.dem o'.crsEqual (demCall o' (μ.args a)) m').1 = (processDem o.dem o.crsEqual (demCall o a) m).1.map μ.dem := by
  have hs := μ.pos
  have hmask : ∀ d, maskDem (maskArgs (demCall o' (μ.args a)) (μ.dem d)) true true =
      (maskDem (maskArgs (demCall o a) d) true true).map fun q => ⟨μ.dem q.out, q.warned, fun i j => μ.pz (q.input i j)⟩ := fun d =>
    maskDem_move μ (maskArgs (demCall o a) d) (maskArgs (demCall o' (μ.args a)) (μ.dem d)) rfl (h.poly _ d) rfl rfl
      (by simp only [maskArgs, demCall, h.libs.1, Move.dem]) rfl true true
  have hrep : ∃ d, (∃ e, reprojectDem o.dem o.crsEqual (demCall o a) m = .error e ∧ reprojectDem o'.dem o'.crsEqual (demCall o' (μ.args a)) m' = .error e) ∨
      ∃ x x', reprojectDem o.dem o.crsEqual (demCall o a) m = .ok x ∧ reprojectDem o'.dem o'.crsEqual (demCall o' (μ.args a)) m' = .ok x' ∧
        x.1.load x.2 = d ∧ x'.1.load x'.2 = μ.dem d := by
    have hal : ∀ (m : Mem K) d, (m.alloc d).1.load (m.alloc d).2 = d := fun m d => by simp [Mem.alloc, DemRef.load]
    have hres : (demCall o' (μ.args a)).resolution = μ.len (demCall o a).resolution := res_move h a
    have hdt := congrArg DemOut.t h.dem
    have c1 : (o'.crsEqual = true ∧ (demCall o' (μ.args a)).resolution = (|o'.dem.t.a|, |o'.dem.t.e|)) ↔
        (o.crsEqual = true ∧ (demCall o a).resolution = (|o.dem.t.a|, |o.dem.t.e|)) := by
      rw [h.crs, hres]
      refine and_congr_right fun hc => ?_
      rw [if_pos hc] at hdt
      have hdt' : o'.dem.t = μ.tr o.dem.t := hdt
      rw [hdt']
      simp only [Move.len, Move.tr, abs_mul, abs_of_pos hs, Prod.ext_iff]
      rw [mul_right_inj' hs.ne', mul_right_inj' hs.ne']
    have c2 : ((demCall o' (μ.args a)).orthoSize.1 < (demCall o' (μ.args a)).resolution.1 ∨
        (demCall o' (μ.args a)).orthoSize.2 < (demCall o' (μ.args a)).resolution.2) ↔
        ((demCall o a).orthoSize.1 < (demCall o a).resolution.1 ∨ (demCall o a).orthoSize.2 < (demCall o a).resolution.2) := by
      rw [hres]
      have : (demCall o' (μ.args a)).orthoSize = μ.len (demCall o a).orthoSize := h.orthoSize
      rw [this]
      simp only [Move.len, mul_lt_mul_iff_right₀ hs]
    unfold reprojectDem
    simp only [c1, c2]
    by_cases k1 : o.crsEqual = true ∧ (demCall o a).resolution = (|o.dem.t.a|, |o.dem.t.e|)
    · refine ⟨o.dem.load m, .inr ⟨_, _, if_pos k1, if_pos k1, hal _ _, ?_⟩⟩
      rw [hal, h.dem, if_pos k1.1]
    · rw [if_neg k1, if_neg k1]
      by_cases k2 : (demCall o a).orthoSize.1 < (demCall o a).resolution.1 ∨ (demCall o a).orthoSize.2 < (demCall o a).resolution.2
      · exact ⟨o.dem.load m, .inl ⟨_, if_pos k2, if_pos k2⟩⟩
      · refine ⟨(demCall o a).reproject (o.dem.load m), .inr ⟨_, _, if_neg k2, if_neg k2, hal _ _, ?_⟩⟩
        rw [hal]
        show o'.reproject _ (resolutionOf o' (μ.args a)) _ = μ.dem (o.reproject _ (resolutionOf o a) _)
        rw [res_move h]
        exact h.reproject _ _
  obtain ⟨d, ⟨e, h1, h2⟩ | ⟨⟨x1, x2⟩, ⟨y1, y2⟩, h1, h2, h3, h4⟩⟩ := hrep
  · unfold processDem
    rw [h1, h2]; rfl
  · unfold processDem
    simp only [h1, h2]
    simp only at h3 h4
    rw [h3, h4, hmask]
    cases maskDem (maskArgs (demCall o a) d) true true with
    | error e => rfl
    | ok q => rfl

theorem prepare_move (h : ObjMoved μ o o' m m') (a : Args K) :
    prepare o' (μ.args a) m' = (prepare o a m).map fun x => (μ.dem x.1, x.2) := by
  have hd : dtypeOf o' (μ.args a) = dtypeOf o a := by unfold dtypeOf; simp only [h.image.2.2.2.2.2.1]; rfl
  unfold prepare
  rw [h.image.2.1]
  cases o.srcErr with
  | some e => rfl
  | none =>
    simp only [processDem_move h, hd, h.image.2.2.2.2.1]
    show (if a.demInterp ∉ interps then _ else _) = _
    by_cases hi : a.demInterp ∉ interps
    · rw [if_pos hi, if_pos hi]; rfl
    · rw [if_neg hi, if_neg hi]
      cases (processDem o.dem o.crsEqual (demCall o a) m).1 with
      | error e => rfl
      | ok d =>
        simp only [Except.map]
        show (match createProfile a.driver o.count d.h d.w (dtypeOf o a) a.compress a.writeMask a.opts with
          | .error e => _
          | .ok (p, wm) => _) = _
        cases createProfile a.driver o.count d.h d.w (dtypeOf o a) a.compress a.writeMask a.opts with
        | error e => rfl
        | ok q => rfl

theorem kernel_move (μ : Move K) (g : K) (t : Affine K) : kernelSize (μ.s * g) (μ.tr t) = kernelSize g t := by
  have hs := μ.pos
  have e : ∀ b : K, 5 * (μ.s * g) / |μ.s * b| = 5 * g / |b| := fun b => by
    rw [abs_mul, abs_of_pos hs, ← mul_div_mul_left (5 * g) |b| hs.ne']
    congr 1; ring
  simp only [kernelSize, Move.tr, e]

theorem tiles_move (h : ObjMoved μ o o' m m') (a : Args K) (d : DemOut K) (p : Profile) (wm : Bool) :
    SameTiles (remapIn o a d p wm) (remapIn o' (μ.args a) (μ.dem d) p wm) := by
  have hd : dtypeOf o' (μ.args a) = dtypeOf o a := by unfold dtypeOf; simp only [h.image.2.2.2.2.2.1]; rfl
  have hn : nodataFor o' (μ.args a) = nodataFor o a := by unfold nodataFor; rw [hd]
  refine ⟨by simp only [remapIn, h.libs.2.1], by simp only [remapIn, h.image.2.2.2.2.1], rfl, fun w₀ ix w => ?_⟩
  have hg : ∀ r c, (tileGrids (μ.tr d.t) (initGrids (μ.tr d.t) w₀) w).get r c = μ.xy ((tileGrids d.t (initGrids d.t w₀) w).get r c) := by
    intro r c
    simp only [tileGrids, initGrids, Grid.slice, window_move]
    simp only [Move.tr, Move.xy, Affine.mul, Affine.translation, Affine.apply, Affine.window, Prod.mk.injEq]
    constructor <;> ring
  unfold computeTile
  simp only [remapIn, h.kind.1, h.kind.2.1, h.kind.2.2, h.image.1, h.image.2.2.1, h.image.2.2.2.1, h.gsd, hd, hn]
  simp only [Move.dem, kernel_move, hg, Grid.slice]
  unfold remap cameraRemap remapPix
  simp only [h.cam, (h.samp _).1, (h.samp _).2]
  rfl

/-- C125: an ortho that `process` makes is made in other coordinates too, with the same pixels, mask, size, profile, colours and overviews. -/
theorem C125_process (h : ObjMoved μ o o' m m') (a : Args K) (fs fs' : FS (OrthoFile K)) (fault : Option (Fault (OrthoFile K)))
    (path : String) (hn : Names a.file path) (hp : Process o a m fs fault fs' (.ok ())) :
    ∃ f, fs' = fs.put path (some f) ∧ Process o' (μ.args a) m' fs fault (fs.put path (some (μ.file o'.crs f))) (.ok ()) := by
  cases hp with
  | @done d p wm path im h1 h2 h3 h4 h5 =>
    obtain rfl := openCheck_names hn h2
    refine ⟨_, rfl, ?_⟩
    have hp' : prepare o' (μ.args a) m' = .ok (μ.dem d, p, wm) := by rw [prepare_move h, h1]; rfl
    have hr : Remap (remapIn o' (μ.args a) (μ.dem d) p wm) (μ.args a).perBand o'.blank (.ok im) := by
      rw [h.libs.2.2]; exact remap_same (tiles_move h a d p wm) h5
    have := Process.done (fault := fault) hp' (path := path) h2 h3 h4 hr
    simp only [created, h.libs.2.2, h.image.2.2.2.2.2.2] at this
    exact this

/-- C125: an exception of `process` is raised in other coordinates too. -/
theorem C125_process_error (h : ObjMoved μ o o' m m') (a : Args K) (fs fs' : FS (OrthoFile K)) (fault : Option (Fault (OrthoFile K))) (e : PyErr)
    (hp : Process o a m fs fault fs' (.error e)) :
    ∃ fs'', Process o' (μ.args a) m' fs fault fs'' (.error e) ∧
      (fs'' = fs' ∨ ∃ path f, fs' = fs.put path (some f) ∧ fs'' = fs.put path (some (μ.file o'.crs f))) := by
  cases hp with
  | before h1 => exact ⟨_, .before (by rw [prepare_move h, h1]; rfl), .inl rfl⟩
  | refused h1 h2 => exact ⟨_, .refused (by rw [prepare_move h, h1]; rfl) h2, .inl rfl⟩
  | fault h1 h2 h3 => exact ⟨_, .fault (by rw [prepare_move h, h1]; rfl) h2 h3, .inl rfl⟩
  | @interp d p wm path h1 h2 h3 h4 =>
    refine ⟨_, .interp (d := μ.dem d) (p := p) (wm := wm) (by rw [prepare_move h, h1]; rfl) h2 h3 h4, .inr ⟨path, _, rfl, ?_⟩⟩
    simp only [created, h.libs.2.2, h.image.2.2.2.2.2.2]; rfl
  | @stopped d p wm path e left h1 h2 h3 h4 h5 h6 =>
    refine ⟨_, .stopped (d := μ.dem d) (p := p) (wm := wm) left (by rw [prepare_move h, h1]; rfl) h2 h3 h4 ?_ ?_, .inr ⟨path, _, rfl, ?_⟩⟩
    · rw [h.libs.2.2]; exact remap_same (tiles_move h a d p wm) h5
    · rw [h.libs.2.2]; exact moment_same (tiles_move h a d p wm) h6
    · simp only [created, h.libs.2.2, h.image.2.2.2.2.2.2]; rfl

/-! ## Example -/

/-- The old DEM of a new one. -/
def Move.backDem (μ : Move K) (d : DemOut K) : DemOut K :=
  ⟨fun i j => (d.arr i j).map fun e => (e - μ.dz) / μ.s, d.h, d.w,
    ⟨d.t.a / μ.s, d.t.b / μ.s, (d.t.c - μ.dx) / μ.s, d.t.d / μ.s, d.t.e / μ.s, (d.t.f - μ.dy) / μ.s⟩⟩

theorem backDem_dem (μ : Move K) (d : DemOut K) : μ.backDem (μ.dem d) = d := by
  have hs := μ.pos.ne'
  obtain ⟨arr, h, w, t⟩ := d
  simp only [Move.backDem, Move.dem, Move.tr, Move.pz, DemOut.mk.injEq, true_and]
  refine ⟨?_, ?_⟩
  · funext i j
    cases arr i j with
    | none => rfl
    | some e => simp [Move.z, hs]
  · ext <;> simp [hs]

/-- Each object, with a DEM in the CRS of the ortho, in other coordinates. -/
def Move.obj (μ : Move K) (o : Obj K Src) (crs : String) : Obj K Src :=
  { o with
    cam := fun i => ⟨fun x y e => (o.cam i).w2p (x.map fun x => (x - μ.dx) / μ.s) (y.map fun y => (y - μ.dy) / μ.s) (e.map fun e => (e - μ.dz) / μ.s),
      (o.cam i).f32, (o.cam i).samp⟩
    dem := { o.dem with t := μ.tr o.dem.t }
    gsd := μ.s * o.gsd
    orthoSize := μ.len o.orthoSize
    reproject := fun i res d => μ.dem (o.reproject i (res.1 / μ.s, res.2 / μ.s) (μ.backDem d))
    poly := fun i d => (o.poly i (μ.backDem d)).map μ.xy
    crs := crs }

/-- The hypothesis of `C125_process` is met for each object with a DEM in the CRS of the ortho. -/
theorem obj_moved (μ : Move K) (o : Obj K Src) (hc : o.crsEqual = true) (crs : String) (m : Mem K) :
    ObjMoved μ o (μ.obj o crs) m ⟨fun s i j => μ.pz (m.cell s i j), m.next⟩ := by
  have hs := μ.pos.ne'
  refine ⟨⟨⟨rfl, rfl, rfl⟩, ⟨rfl, rfl, rfl, rfl, rfl, rfl, rfl⟩, ⟨rfl, rfl, rfl⟩, rfl, rfl, rfl, ?_, ?_, ?_⟩, ?_, fun i => ⟨rfl, rfl⟩⟩
  · rw [if_pos hc]; rfl
  · intro i res
    have : (μ.obj o crs).dem.load ⟨fun s i j => μ.pz (m.cell s i j), m.next⟩ = μ.dem (o.dem.load m) := rfl
    rw [this]
    simp only [Move.obj, backDem_dem, Move.len]
    simp [hs]
  · intro i d
    simp only [Move.obj, backDem_dem]
  · intro i x y e
    cases e <;> simp [Move.obj, Move.xy, Move.pz, Move.z, hs]

/-- A DEM of 2 by 2 pixels of 10 m, of which the camera sees all at each elevation. -/
def smallDem : DemIn ℚ :=
  ⟨⟨10, 0, 100, 0, -10, 200⟩, 2, 2, fun i j => if i = 0 ∧ j = 0 then none else some (i + j : ℕ), true, .ok, fun z => .ok [(101 - z / 1000, 181), (109, 199)],
    -106.71, 8932.28, fun _ _ e => e.getD 0, id⟩

/-- The DEM in feet. -/
def smallDemOf (μ : Move ℚ) : DemIn ℚ :=
  ⟨μ.tr smallDem.t, 2, 2, fun i j => μ.pz (smallDem.val i j), true, .ok, fun z => .ok [μ.xy (101 - (z - μ.dz) / μ.s / 1000, 181), μ.xy (109, 199)],
    μ.z (-106.71), μ.z 8932.28, fun _ _ e => e.getD (μ.z 0), id⟩

/-- From metres to feet, with the origin 1000 m west. -/
def toFeet : Move ℚ := ⟨1 / 0.3048, 1000 / 0.3048, 0, 0, by norm_num⟩

/-- The ortho of the demonstration in feet: two of the bands' pixels are as in metres. -/
example : ∃ f f' : OrthoFile ℚ, Process demoObj demoArgs demoMem (fun _ => none) none (FS.put (fun _ => none) "ortho.tif" (some f)) (.ok ()) ∧
    Process (toFeet.obj demoObj "ft") (toFeet.args demoArgs) ⟨fun s i j => toFeet.pz (demoMem.cell s i j), 1⟩ (fun _ => none) none
      (FS.put (fun _ => none) "ortho.tif" (some f')) (.ok ()) ∧ f'.im = f.im ∧ f'.transform.a = f.transform.a / 0.3048 := by
  obtain ⟨⟨fs', hp⟩, -⟩ := C82_completes demoObj demoArgs demoMem (fun _ => none) demo_infoOk ⟨by simp [Dict.Ok, demoArgs], by decide⟩ "ortho.tif" (2, 2) "uint8"
    (.inr ⟨rfl, rfl⟩) (.inr ⟨.inl rfl, rfl⟩) demo_ready ⟨.inl rfl, .inr rfl⟩ (by decide) ⟨by decide, by decide⟩ demo_small
  obtain ⟨f, rfl, h'⟩ := C125_process (obj_moved toFeet demoObj rfl "ft" demoMem) demoArgs _ _ _ "ortho.tif" (.inl rfl) hp
  exact ⟨f, _, hp, h', rfl, by simp [Move.file, Move.tr, toFeet]; ring⟩

example : ∃ d, initDem (smallDemOf toFeet) = .ok (toFeet.dem d) ∧ d.h = 2 ∧ d.w = 1 ∧ (toFeet.dem d).t.a = 10 / 0.3048 := by
  have h := C125_dem (μ := toFeet) (d := smallDem) (d' := smallDemOf toFeet) ⟨⟨rfl, rfl⟩, rfl, fun z => by
      simp [smallDemOf, smallDem, Move.z, Except.map, toFeet.pos.ne'], rfl, rfl, fun _ => ⟨rfl, fun _ _ => rfl, fun x y e => by
      cases e <;> rfl, fun _ _ _ _ => rfl⟩, fun hc => by cases hc⟩
  have h0 : ∃ d, initDem smallDem = .ok d ∧ d.h = 2 ∧ d.w = 1 ∧ d.t.a = 10 := by
    refine ⟨cropDem smallDem ⟨0, 0, 1, 2⟩ ⟨0, 0, 1, 2⟩, ?_, ?_⟩
    · have w1 : winAtZs smallDem [smallDem.zlo, smallDem.zhi] = .ok ⟨0, 0, 1, 2⟩ := by decide +kernel
      have w2 : winAtZs smallDem (demZs smallDem ⟨0, 0, 1, 2⟩) = .ok ⟨0, 0, 1, 2⟩ := by decide +kernel
      have w3 : interI ⟨0, 0, 1, 2⟩ ⟨0, 0, 1, 2⟩ = .ok ⟨0, 0, 1, 2⟩ := by decide
      simp only [initDem, w1, w2, w3, ok_bind]
    · refine ⟨rfl, rfl, ?_⟩
      simp [cropDem, smallDem, Affine.window, Affine.mul, Affine.translation]
  obtain ⟨d, hd, h1, h2, h3⟩ := h0
  refine ⟨d, by rw [h, hd]; rfl, h1, h2, ?_⟩
  simp only [Move.dem, Move.tr, h3, toFeet]
  norm_num

end Verif.Moved
