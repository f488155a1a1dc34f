import Verif.Dem.Model
import Verif.Frame.Boundary

/-!
# C54: cropping and masking the DEM
-/

set_option autoImplicit false
set_option linter.unusedSectionVars false

namespace Verif.Dem
open Verif.Common Verif.Ortho

variable {K : Type} [Field K] [LinearOrder K] [IsStrictOrderedRing K] [FloorRing K]

/-! ## Specification -/

/-- The point lies in the bounding box of the points. -/
def InBox (pts : List (K × K)) (x y : K) : Prop :=
  (∃ p ∈ pts, p.1 ≤ x) ∧ (∃ p ∈ pts, x ≤ p.1) ∧ (∃ p ∈ pts, p.2 ≤ y) ∧ (∃ p ∈ pts, y ≤ p.2)

/-! ## Lemmas -/

theorem lmin_le (x : K) (l : List K) : lmin x l ≤ x ∧ ∀ y ∈ l, lmin x l ≤ y := by
  unfold lmin
  induction l generalizing x with
  | nil => simp
  | cons a l ih =>
    simp only [List.foldl_cons, List.mem_cons, forall_eq_or_imp]
    have := ih (min x a)
    exact ⟨this.1.trans (min_le_left _ _), this.1.trans (min_le_right _ _), this.2⟩

theorem le_lmax (x : K) (l : List K) : x ≤ lmax x l ∧ ∀ y ∈ l, y ≤ lmax x l := by
  unfold lmax
  induction l generalizing x with
  | nil => simp
  | cons a l ih =>
    simp only [List.foldl_cons, List.mem_cons, forall_eq_or_imp]
    have := ih (max x a)
    exact ⟨(le_max_left _ _).trans this.1, (le_max_right _ _).trans this.1, this.2⟩

theorem boundsOf_has {pts : List (K × K)} {b : Bnds K} (h : boundsOf pts = .ok b) {x y : K} (hb : InBox pts x y) :
    b.Has x y := by
  cases pts with
  | nil => cases h
  | cons q l =>
    simp only [boundsOf, Except.ok.injEq] at h
    subst h
    have m1 := lmin_le q.1 (l.map Prod.fst)
    have m2 := lmin_le q.2 (l.map Prod.snd)
    have m3 := le_lmax q.1 (l.map Prod.fst)
    have m4 := le_lmax q.2 (l.map Prod.snd)
    simp only [List.mem_map, forall_exists_index, and_imp, forall_apply_eq_imp_iff₂] at m1 m2 m3 m4
    obtain ⟨⟨p1, h1, g1⟩, ⟨p2, h2, g2⟩, ⟨p3, h3, g3⟩, ⟨p4, h4, g4⟩⟩ := hb
    simp only [List.mem_cons] at h1 h2 h3 h4
    refine ⟨?_, ?_, ?_, ?_⟩
    · refine le_trans ?_ g1
      rcases h1 with rfl | h1
      · exact m1.1
      · exact m1.2 p1 h1
    · refine le_trans g2 ?_
      rcases h2 with rfl | h2
      · exact m3.1
      · exact m3.2 p2 h2
    · refine le_trans ?_ g3
      rcases h3 with rfl | h3
      · exact m2.1
      · exact m2.2 p3 h3
    · refine le_trans g4 ?_
      rcases h4 with rfl | h4
      · exact m4.1
      · exact m4.2 p4 h4

theorem winAtZs_ok {d : DemIn K} {zs : List K} {win : IWin} (h : winAtZs d zs = .ok win) :
    ∃ b w i, demBounds d zs = .ok b ∧ fromBounds d.t b = .ok w ∧
      (⟨0, 0, d.w, d.h⟩ : RWin K).inter w = .ok i ∧ win = expandWindowToGrid i (0, 0) := by
  unfold winAtZs at h
  cases e1 : demBounds d zs with
  | error e => rw [e1] at h; cases h
  | ok b =>
    rw [e1, Res.ok_bind] at h
    cases e2 : fromBounds d.t b with
    | error e => rw [e2] at h; cases h
    | ok w =>
      rw [e2, Res.ok_bind] at h
      cases e3 : (⟨0, 0, d.w, d.h⟩ : RWin K).inter w with
      | error e => rw [e3] at h; cases h
      | ok i =>
        rw [e3] at h
        cases h
        exact ⟨b, w, i, rfl, e2, e3, rfl⟩

theorem winAtZs_inside {d : DemIn K} {zs : List K} {win : IWin} (h : winAtZs d zs = .ok win) :
    win.Inside ⟨0, 0, d.w, d.h⟩ ∧ 0 < win.width ∧ 0 < win.height := by
  obtain ⟨b, w, i, -, -, e3, rfl⟩ := winAtZs_ok h
  have hi := inter_ok e3
  have hs := C09_expand_size i hi.2.1 hi.2.2
  refine ⟨expand_inside i hi.2.1.le hi.2.2.le _ fun u v huv => ?_, hs.1, hs.2.1⟩
  have := ((hi.1 u v).1 huv).1
  simpa [RWin.Has, IWin.Has] using this

theorem winAtZs_has {d : DemIn K} {zs : List K} {win : IWin} (h : winAtZs d zs = .ok win) :
    ∃ b, demBounds d zs = .ok b ∧ ∀ u v : K, 0 ≤ u → u ≤ d.w → 0 ≤ v → v ≤ d.h →
      b.Has (d.t.apply u v).1 (d.t.apply u v).2 → win.Has u v := by
  obtain ⟨b, w, i, e1, e2, e3, rfl⟩ := winAtZs_ok h
  refine ⟨b, e1, fun u v h1 h2 h3 h4 hb => ?_⟩
  refine expand_has i (((inter_ok e3).1 u v).2 ⟨?_, fromBounds_has e2 hb⟩)
  exact ⟨h1, by simpa using h2, h3, by simpa using h4⟩

theorem interI_ok {a b w : IWin} (h : interI a b = .ok w) :
    w.Inside a ∧ w.Inside b ∧ 0 < w.width ∧ 0 < w.height ∧
      ∀ u v : K, a.Has u v → b.Has u v → w.Has u v := by
  unfold interI at h
  simp only at h
  split_ifs at h with h1
  simp only [Except.ok.injEq] at h
  subst h
  push Not at h1
  refine ⟨⟨by simp, by simp, by simp, by simp⟩, ⟨by simp, by simp, by simp, by simp⟩, by simpa using h1.1,
    by simpa using h1.2, fun u v ha hb => ?_⟩
  obtain ⟨a1, a2, a3, a4⟩ := ha
  obtain ⟨b1, b2, b3, b4⟩ := hb
  refine ⟨?_, ?_, ?_, ?_⟩
  · rw [Int.cast_max]; exact max_le a1 b1
  · simp only [add_sub_cancel]; rw [Int.cast_min]; exact le_min a2 b2
  · rw [Int.cast_max]; exact max_le a3 b3
  · simp only [add_sub_cancel]; rw [Int.cast_min]; exact le_min a4 b4

theorem initDem_ok {d : DemIn K} {o : DemOut K} (h : initDem d = .ok o) : ∃ first win₂ win,
    winAtZs d [d.zlo, d.zhi] = .ok first ∧ winAtZs d (demZs d first) = .ok win₂ ∧ interI win₂ first = .ok win ∧
      o = cropDem d first win := by
  unfold initDem at h
  cases e1 : winAtZs d [d.zlo, d.zhi] with
  | error e => rw [e1] at h; cases h
  | ok first =>
    rw [e1, Res.ok_bind] at h
    cases e2 : winAtZs d (demZs d first) with
    | error e => rw [e2] at h; cases h
    | ok win₂ =>
      rw [e2, Res.ok_bind] at h
      cases e3 : interI win₂ first with
      | error e => rw [e3] at h; cases h
      | ok win =>
        rw [e3] at h
        cases h
        exact ⟨first, win₂, win, rfl, e2, e3, rfl⟩

/-- C54: the cropped DEM is a rectangle of the DEM: every elevation is that of a DEM pixel (rounded to float32), and
its position in the cropped DEM and in the DEM is the same point. -/
theorem C54_crop (d : DemIn K) (o : DemOut K) (h : initDem d = .ok o) :
    ∃ r0 c0 : ℕ, r0 + o.h ≤ d.h ∧ c0 + o.w ≤ d.w ∧ 0 < o.h ∧ 0 < o.w ∧
      (∀ r < o.h, ∀ c < o.w, o.arr r c = (d.val (r0 + r) (c0 + c)).map d.f32) ∧
      ∀ u v : K, o.t.apply u v = d.t.apply (u + c0) (v + r0) := by
  obtain ⟨first, win₂, win, e1, e2, e3, rfl⟩ := initDem_ok h
  obtain ⟨i1, -, -⟩ := winAtZs_inside e1
  obtain ⟨-, i2, s1, s2, -⟩ := interI_ok (K := K) e3
  have f1 := i1.left; have f2 := i1.right; have f3 := i1.top; have f4 := i1.bottom
  have g1 := i2.left; have g2 := i2.right; have g3 := i2.top; have g4 := i2.bottom
  simp only at f1 f2 f3 f4
  obtain ⟨c0, hc0⟩ := Int.eq_ofNat_of_zero_le (show 0 ≤ win.colOff by omega)
  obtain ⟨r0, hr0⟩ := Int.eq_ofNat_of_zero_le (show 0 ≤ win.rowOff by omega)
  refine ⟨r0, c0, ?_, ?_, ?_, ?_, ?_, ?_⟩
  · simp only [cropDem]; omega
  · simp only [cropDem]; omega
  · simp only [cropDem]; omega
  · simp only [cropDem]; omega
  · intro r _ c _
    simp only [cropDem, readWin]
    congr 2 <;> omega
  · intro u v
    simp only [cropDem, Affine.window_apply, hc0, hr0, Int.cast_natCast]

/-- Elevation order used to find the lowest and highest pixels. -/
theorem argBest_mem (better : Pix K → Pix K → Bool) (f : ℕ × ℕ → Pix K) (cells : List (ℕ × ℕ)) (h : cells ≠ []) :
    argBest better f cells ∈ cells := by
  unfold argBest
  have key : ∀ (l : List (ℕ × ℕ)) (b : ℕ × ℕ),
      l.foldl (fun best p => if better (f p) (f best) then p else best) b = b ∨
      l.foldl (fun best p => if better (f p) (f best) then p else best) b ∈ l := by
    intro l
    induction l with
    | nil => intro b; exact .inl rfl
    | cons a l ih =>
      intro b
      simp only [List.foldl_cons, List.mem_cons]
      split_ifs
      · rcases ih a with h | h
        · exact .inr (.inl h)
        · exact .inr (.inr h)
      · rcases ih b with h | h
        · exact .inl h
        · exact .inr (.inr h)
  cases cells with
  | nil => exact absurd rfl h
  | cons a l =>
    rcases key (a :: l) a with h | h
    · simp only [List.headD_cons]; rw [h]; simp
    · exact h

theorem argBest_best (better : Pix K → Pix K → Bool)
    (htrans : ∀ a b c, better a b = false → better b c = false → better a c = false)
    (hasym : ∀ a b, better a b = true → better b a = false)
    (f : ℕ × ℕ → Pix K) (cells : List (ℕ × ℕ)) : ∀ p ∈ cells, better (f p) (f (argBest better f cells)) = false := by
  unfold argBest
  have hirr : ∀ a, better a a = false := by
    intro a
    cases hb : better a a with
    | false => rfl
    | true => have := hasym a a hb; rw [hb] at this; cases this
  have key : ∀ (l : List (ℕ × ℕ)) (b : ℕ × ℕ),
      (better (f b) (f (l.foldl (fun best p => if better (f p) (f best) then p else best) b)) = false) ∧
      ∀ p ∈ l, better (f p) (f (l.foldl (fun best p => if better (f p) (f best) then p else best) b)) = false := by
    intro l
    induction l with
    | nil => intro b; simp [hirr]
    | cons a l ih =>
      intro b
      simp only [List.foldl_cons, List.mem_cons, forall_eq_or_imp]
      split_ifs with hb
      · have := ih a
        exact ⟨htrans _ _ _ (hasym _ _ hb) this.1, this.1, this.2⟩
      · have := ih b
        have hb' : better (f a) (f b) = false := by simpa using hb
        exact ⟨this.1, htrans _ _ _ hb' this.1, this.2⟩
  intro p hp
  exact (key cells _).2 p hp

theorem lessM_trans (a b c : Pix K) (h1 : lessM a b = false) (h2 : lessM b c = false) : lessM a c = false := by
  cases a <;> cases b <;> cases c <;> simp_all [lessM]
  exact h2.trans h1

theorem lessM_asym (a b : Pix K) (h1 : lessM a b = true) : lessM b a = false := by
  cases a <;> cases b <;> simp_all [lessM]
  exact h1.le

theorem moreM_trans (a b c : Pix K) (h1 : moreM a b = false) (h2 : moreM b c = false) : moreM a c = false := by
  cases a <;> cases b <;> cases c <;> simp_all [moreM]
  exact h1.trans h2

theorem moreM_asym (a b : Pix K) (h1 : moreM a b = true) : moreM b a = false := by
  cases a <;> cases b <;> simp_all [moreM]
  exact h1.le

theorem mem_cellsOf {h w : ℕ} {p : ℕ × ℕ} : p ∈ cellsOf h w ↔ p.1 < h ∧ p.2 < w := by
  unfold cellsOf
  simp only [List.mem_flatMap, List.mem_range, List.mem_map]
  constructor
  · rintro ⟨r, hr, c, hc, rfl⟩; exact ⟨hr, hc⟩
  · rintro ⟨h1, h2⟩; exact ⟨p.1, h1, p.2, h2, rfl⟩

/-- C54: the elevations used for the crop are those of the lowest and of the highest DEM pixels in the window that is
read first. -/
theorem C54_extremes (d : DemIn K) (first : IWin) (h : winAtZs d [d.zlo, d.zhi] = .ok first) :
    ∃ lo hi : ℕ × ℕ, lo.1 < first.height ∧ lo.2 < first.width ∧ hi.1 < first.height ∧ hi.2 < first.width ∧
      demZs d first = [lo, hi].map (fun ij =>
        d.zmap (d.t.apply (ij.2 + first.colOff) (ij.1 + first.rowOff)).1
          (d.t.apply (ij.2 + first.colOff) (ij.1 + first.rowOff)).2 (readWin d first ij.1 ij.2)) ∧
      ∀ r c : ℕ, r < first.height → c < first.width → ∀ x, readWin d first r c = some x →
        (∃ a, readWin d first lo.1 lo.2 = some a ∧ a ≤ x) ∧ (∃ b, readWin d first hi.1 hi.2 = some b ∧ x ≤ b) := by
  obtain ⟨-, s1, s2⟩ := winAtZs_inside h
  have hne : cellsOf first.height.toNat first.width.toNat ≠ [] := by
    intro h0
    have : ((0 : ℕ), (0 : ℕ)) ∈ cellsOf first.height.toNat first.width.toNat := mem_cellsOf.2 ⟨by omega, by omega⟩
    rw [h0] at this
    cases this
  have m1 := mem_cellsOf.1 (argBest_mem lessM (fun p => readWin d first p.1 p.2) _ hne)
  have m2 := mem_cellsOf.1 (argBest_mem moreM (fun p => readWin d first p.1 p.2) _ hne)
  refine ⟨argBest lessM (fun p => readWin d first p.1 p.2) (cellsOf first.height.toNat first.width.toNat),
    argBest moreM (fun p => readWin d first p.1 p.2) (cellsOf first.height.toNat first.width.toNat),
    by omega, by omega, by omega, by omega, ?_, fun r c hr hc x hx => ?_⟩
  · simp only [demZs, Affine.window_apply, List.map_cons, List.map_nil]
  · have hm : (r, c) ∈ cellsOf first.height.toNat first.width.toNat := mem_cellsOf.2 ⟨by omega, by omega⟩
    have b1 := argBest_best lessM lessM_trans lessM_asym (fun p => readWin d first p.1 p.2) _ _ hm
    have b2 := argBest_best moreM moreM_trans moreM_asym (fun p => readWin d first p.1 p.2) _ _ hm
    simp only [hx] at b1 b2
    constructor
    · cases hv : readWin d first (argBest lessM (fun p => readWin d first p.1 p.2)
        (cellsOf first.height.toNat first.width.toNat)).1 (argBest lessM (fun p => readWin d first p.1 p.2)
        (cellsOf first.height.toNat first.width.toNat)).2 with
      | none => rw [hv] at b1; cases b1
      | some a => rw [hv] at b1; exact ⟨a, rfl, by simpa [lessM] using b1⟩
    · cases hv : readWin d first (argBest moreM (fun p => readWin d first p.1 p.2)
        (cellsOf first.height.toNat first.width.toNat)).1 (argBest moreM (fun p => readWin d first p.1 p.2)
        (cellsOf first.height.toNat first.width.toNat)).2 with
      | none => rw [hv] at b2; cases b2
      | some a => rw [hv] at b2; exact ⟨a, rfl, by simpa [moreM] using b2⟩

theorem has_sub {t : Affine K} {win : IWin} {d : DemIn K} (ht : t = d.t.window win.colOff win.rowOff) {u v : K}
    (h : win.Has u v) : ∃ u' v' : K, 0 ≤ u' ∧ u' ≤ win.width ∧ 0 ≤ v' ∧ v' ≤ win.height ∧
      t.apply u' v' = d.t.apply u v := by
  obtain ⟨h1, h2, h3, h4⟩ := h
  push_cast at h2 h4
  refine ⟨u - win.colOff, v - win.rowOff, by linarith, by linarith, by linarith, by linarith, ?_⟩
  rw [ht, Affine.window_apply, sub_add_cancel, sub_add_cancel]

/-- C54: the crop loses nothing that is needed: every location of the DEM that is in the bounds of the camera's
boundaries at the extreme elevations `zlo` and `zhi`, and in those of its boundaries at the lowest and highest
elevations of the DEM, is in the cropped DEM.  (Bounds in the DEM CRS.) -/
theorem C54_cover (d : DemIn K) (o : DemOut K) (h : initDem d = .ok o) :
    ∃ first b₁ b₂, winAtZs d [d.zlo, d.zhi] = .ok first ∧ demBounds d [d.zlo, d.zhi] = .ok b₁ ∧
      demBounds d (demZs d first) = .ok b₂ ∧
      ∀ u v : K, 0 ≤ u → u ≤ d.w → 0 ≤ v → v ≤ d.h → b₁.Has (d.t.apply u v).1 (d.t.apply u v).2 →
        b₂.Has (d.t.apply u v).1 (d.t.apply u v).2 →
        ∃ u' v' : K, 0 ≤ u' ∧ u' ≤ o.w ∧ 0 ≤ v' ∧ v' ≤ o.h ∧ o.t.apply u' v' = d.t.apply u v := by
  obtain ⟨first, win₂, win, e1, e2, e3, rfl⟩ := initDem_ok h
  obtain ⟨b1, hb1, c1⟩ := winAtZs_has e1
  obtain ⟨b2, hb2, c2⟩ := winAtZs_has e2
  refine ⟨first, b1, b2, e1, hb1, hb2, fun u v h1 h2 h3 h4 g1 g2 => ?_⟩
  obtain ⟨-, -, s1, s2, hi⟩ := interI_ok (K := K) e3
  have := hi u v (c2 u v h1 h2 h3 h4 g2) (c1 u v h1 h2 h3 h4 g1)
  obtain ⟨u', v', q1, q2, q3, q4, q5⟩ := has_sub rfl this
  refine ⟨u', v', q1, ?_, q3, ?_, q5⟩
  · have : ((cropDem d first win).w : K) = win.width := by
      simp only [cropDem]
      rw [← Int.cast_natCast, Int.toNat_of_nonneg s1.le]
    rw [this]; exact q2
  · have : ((cropDem d first win).h : K) = win.height := by
      simp only [cropDem]
      rw [← Int.cast_natCast, Int.toNat_of_nonneg s2.le]
    rw [this]; exact q4

/-- Elevation between two others. -/
theorem between {a b z A B : K} (h1 : a ≤ z) (h2 : z ≤ b) :
    min (A + a * B) (A + b * B) ≤ A + z * B ∧ A + z * B ≤ max (A + a * B) (A + b * B) := by
  have := linear_box (α := B) (γ := A) (l := a) (r := b) (x := z) ⟨h1, h2⟩
  rw [show A + a * B = B * a + A by ring, show A + b * B = B * b + A by ring, show A + z * B = B * z + A by ring]
  exact this

/-- The boundary of a camera whose pixels' world points move linearly with the elevation, up to the camera height
`top`: `FrameCamera.world_boundary` (orthority/camera.py:960-1018, C41_linear). -/
def rayBoundary (rays : List ((K × K) × (K × K))) (top : K) (z : K) : List (K × K) :=
  rays.map fun r => (r.1.1 + min z top * r.2.1, r.1.2 + min z top * r.2.2)

theorem stack_ok {boundary : K → Res (List (K × K))} {pts : K → List (K × K)} (h : ∀ z, boundary z = .ok (pts z))
    (zs : List K) : stackBoundary boundary zs = .ok (zs.flatMap pts) := by
  induction zs with
  | nil => rfl
  | cons z zs ih => simp only [stackBoundary, h, ih, Res.ok_bind, List.flatMap_cons]

theorem box_nested (rays : List ((K × K) × (K × K))) (top zlo zhi : K) (zs : List K)
    (hz : ∀ z ∈ zs, zlo ≤ z ∧ z ≤ zhi) (x y : K) (h : InBox (zs.flatMap (rayBoundary rays top)) x y) :
    InBox ([zlo, zhi].flatMap (rayBoundary rays top)) x y := by
  have hm : ∀ z ∈ zs, min zlo top ≤ min z top ∧ min z top ≤ min zhi top := fun z hz' =>
    ⟨min_le_min_right _ (hz z hz').1, min_le_min_right _ (hz z hz').2⟩
  have memlo : ∀ r ∈ rays, (r.1.1 + min zlo top * r.2.1, r.1.2 + min zlo top * r.2.2) ∈
      [zlo, zhi].flatMap (rayBoundary rays top) := fun r hr =>
    List.mem_flatMap.2 ⟨zlo, by simp, List.mem_map.2 ⟨r, hr, rfl⟩⟩
  have memhi : ∀ r ∈ rays, (r.1.1 + min zhi top * r.2.1, r.1.2 + min zhi top * r.2.2) ∈
      [zlo, zhi].flatMap (rayBoundary rays top) := fun r hr =>
    List.mem_flatMap.2 ⟨zhi, by simp, List.mem_map.2 ⟨r, hr, rfl⟩⟩
  have get : ∀ p ∈ zs.flatMap (rayBoundary rays top), ∃ r ∈ rays, ∃ z ∈ zs,
      p = (r.1.1 + min z top * r.2.1, r.1.2 + min z top * r.2.2) := by
    intro p hp
    obtain ⟨z, hz', hp⟩ := List.mem_flatMap.1 hp
    obtain ⟨r, hr, rfl⟩ := List.mem_map.1 hp
    exact ⟨r, hr, z, hz', rfl⟩
  obtain ⟨⟨p1, a1, g1⟩, ⟨p2, a2, g2⟩, ⟨p3, a3, g3⟩, ⟨p4, a4, g4⟩⟩ := h
  refine ⟨?_, ?_, ?_, ?_⟩
  · obtain ⟨r, hr, z, hz', rfl⟩ := get p1 a1
    have := (between (A := r.1.1) (B := r.2.1) (hm z hz').1 (hm z hz').2).1
    rcases min_le_iff.1 this with q | q
    · exact ⟨_, memlo r hr, q.trans g1⟩
    · exact ⟨_, memhi r hr, q.trans g1⟩
  · obtain ⟨r, hr, z, hz', rfl⟩ := get p2 a2
    have := (between (A := r.1.1) (B := r.2.1) (hm z hz').1 (hm z hz').2).2
    rcases le_max_iff.1 this with q | q
    · exact ⟨_, memlo r hr, g2.trans q⟩
    · exact ⟨_, memhi r hr, g2.trans q⟩
  · obtain ⟨r, hr, z, hz', rfl⟩ := get p3 a3
    have := (between (A := r.1.2) (B := r.2.2) (hm z hz').1 (hm z hz').2).1
    rcases min_le_iff.1 this with q | q
    · exact ⟨_, memlo r hr, q.trans g3⟩
    · exact ⟨_, memhi r hr, q.trans g3⟩
  · obtain ⟨r, hr, z, hz', rfl⟩ := get p4 a4
    have := (between (A := r.1.2) (B := r.2.2) (hm z hz').1 (hm z hz').2).2
    rcases le_max_iff.1 this with q | q
    · exact ⟨_, memlo r hr, g4.trans q⟩
    · exact ⟨_, memhi r hr, g4.trans q⟩

/-- C54 for frame cameras and a DEM in the ortho CRS: when the elevations of the DEM are between `zlo` and `zhi`, every
location of the DEM in the bounding box of the camera's boundaries at any elevations `z₁`, `z₂` between the lowest and
the highest elevation in the DEM window is in the cropped DEM. -/
theorem C54_frame_cover (d : DemIn K) (o : DemOut K) (h : initDem d = .ok o) (hcrs : d.crsEqual = true)
    (rays : List ((K × K) × (K × K))) (top : K) (hb : ∀ z, d.boundary z = .ok (rayBoundary rays top z))
    (hz : ∀ x y e, (d.zmap x y e : K) = e.getD d.zlo)
    (hr : ∀ r c x, d.val r c = some x → d.zlo ≤ x ∧ x ≤ d.zhi) (hlo : d.zlo ≤ d.zhi) :
    ∃ first, winAtZs d [d.zlo, d.zhi] = .ok first ∧ ∀ zs : List K,
      (∀ z ∈ zs, (∃ r c : ℕ, r < first.height ∧ c < first.width ∧ ∃ x, readWin d first r c = some x ∧ x ≤ z) ∧
        (∃ r c : ℕ, r < first.height ∧ c < first.width ∧ ∃ x, readWin d first r c = some x ∧ z ≤ x)) →
      ∀ u v : K, 0 ≤ u → u ≤ d.w → 0 ≤ v → v ≤ d.h →
        InBox (zs.flatMap (rayBoundary rays top)) (d.t.apply u v).1 (d.t.apply u v).2 →
        ∃ u' v' : K, 0 ≤ u' ∧ u' ≤ o.w ∧ 0 ≤ v' ∧ v' ≤ o.h ∧ o.t.apply u' v' = d.t.apply u v := by
  obtain ⟨first, b₁, b₂, e1, hb1, hb2, hc⟩ := C54_cover d o h
  refine ⟨first, e1, fun zs hzs u v h1 h2 h3 h4 hbox => ?_⟩
  obtain ⟨lo, hi, -, -, -, -, hzz, hext⟩ := C54_extremes d first e1
  simp only [hz, List.map_cons, List.map_nil] at hzz
  have unfoldB : ∀ {zs : List K} {b : Bnds K}, demBounds d zs = .ok b →
      boundsOf (zs.flatMap (rayBoundary rays top)) = .ok b := by
    intro zs b hd
    unfold demBounds at hd
    rw [stack_ok hb, Res.ok_bind] at hd
    cases hq : boundsOf (zs.flatMap (rayBoundary rays top)) with
    | error e => rw [hq] at hd; cases hd
    | ok b' => rw [hq, Res.ok_bind, hcrs] at hd; exact hd
  have hval : ∀ (r c : ℕ) x, readWin d first r c = some x → d.zlo ≤ x ∧ x ≤ d.zhi := fun r c x hx => hr _ _ _ hx
  -- elevations in the list are between those of the extreme pixels
  have hzs' : ∀ z ∈ zs, (readWin d first lo.1 lo.2).getD d.zlo ≤ z ∧ z ≤ (readWin d first hi.1 hi.2).getD d.zlo := by
    intro z hz'
    obtain ⟨⟨r, c, p1, p2, x, p3, p4⟩, ⟨r', c', q1, q2, x', q3, q4⟩⟩ := hzs z hz'
    obtain ⟨a, ha, hle⟩ := (hext r c p1 p2 x p3).1
    obtain ⟨b, hb', hge⟩ := (hext r' c' q1 q2 x' q3).2
    rw [ha, hb']
    exact ⟨hle.trans p4, q4.trans hge⟩
  have hrange : ∀ p : ℕ × ℕ, d.zlo ≤ (readWin d first p.1 p.2).getD d.zlo ∧
      (readWin d first p.1 p.2).getD d.zlo ≤ d.zhi := by
    intro p
    cases hp : readWin d first p.1 p.2 with
    | none => exact ⟨le_rfl, hlo⟩
    | some x => exact hval _ _ x hp
  have box2 := box_nested rays top _ _ zs hzs' _ _ hbox
  have box1 := box_nested rays top d.zlo d.zhi _ (by
    intro z hz'
    simp only [List.mem_cons, List.not_mem_nil, or_false] at hz'
    rcases hz' with rfl | rfl
    · exact hrange lo
    · exact hrange hi) _ _ box2
  refine hc u v h1 h2 h3 h4 (boundsOf_has (unfoldB hb1) box1) (boundsOf_has (unfoldB hb2) ?_)
  rw [hzz]
  exact box2

/-- The world boundary of a frame camera at an elevation has the form that `C54_frame_cover` asks for. -/
theorem C54_frame_rays (c : Frame.FrameCam) (R : Frame.M3) (T : Frame.V3) (jis : List (ℝ × ℝ)) (top : ℝ) :
    ∃ rays : List ((ℝ × ℝ) × (ℝ × ℝ)), ∀ z, rayBoundary rays top z =
      jis.map fun ji => (c.pointAtZ R T ji (min z top) 0, c.pointAtZ R T ji (min z top) 1) := by
  choose A B hAB using Frame.C41_linear c R T
  refine ⟨jis.map fun ji => ((A ji 0, A ji 1), (B ji 0, B ji 1)), fun z => ?_⟩
  simp only [rayBoundary, List.map_map]
  refine List.map_congr_left fun ji _ => ?_
  simp only [Function.comp, hAB]

/-- C54: `_get_init_dem` fails with `OrthorityError` when the camera's bounds are outside the DEM: when no DEM location
with a neighbourhood is in the bounds. -/
theorem C54_outside (d : DemIn K) (b : Bnds K) (w : RWin K) (hb : demBounds d [d.zlo, d.zhi] = .ok b)
    (hw : fromBounds d.t b = .ok w)
    (hout : w.colOff + w.width ≤ 0 ∨ d.w ≤ w.colOff ∨ w.rowOff + w.height ≤ 0 ∨ d.h ≤ w.rowOff) :
    initDem d = .error .orthorityError := by
  have : winAtZs d [d.zlo, d.zhi] = .error .orthorityError := by
    unfold winAtZs
    rw [hb, Res.ok_bind, hw, Res.ok_bind]
    have : (⟨0, 0, d.w, d.h⟩ : RWin K).inter w = .error .windowError := by
      unfold RWin.inter
      simp only [zero_add]
      rw [if_pos]
      rcases hout with h | h | h | h
      · exact .inl (le_trans (min_le_right _ _) (h.trans (le_max_left _ _)))
      · exact .inl (le_trans (min_le_left _ _) (h.trans (le_max_right _ _)))
      · exact .inr (le_trans (min_le_right _ _) (h.trans (le_max_left _ _)))
      · exact .inr (le_trans (min_le_left _ _) (h.trans (le_max_right _ _)))
    rw [this]
  unfold initDem
  rw [this]
  rfl

/-- C54: a DEM with rows from south to north, or columns from east to west, is refused with rasterio's `WindowError`, wherever the camera
is. -/
theorem C54_flipped (d : DemIn K) (b : Bnds K) (hb : demBounds d [d.zlo, d.zhi] = .ok b)
    (hf : (0 < d.t.e ∧ d.t.a ≠ 0 ∧ b.bottom < b.top) ∨ (d.t.a < 0 ∧ d.t.e ≠ 0 ∧ b.left < b.right)) :
    initDem d = .error .windowError := by
  have : winAtZs d [d.zlo, d.zhi] = .error .windowError := by
    unfold winAtZs
    rw [hb, Res.ok_bind]
    unfold fromBounds
    rcases hf with ⟨h1, h2, h3⟩ | ⟨h1, h2, h3⟩
    · rw [if_neg (by simp [h2, h1.ne']), if_pos (.inr (div_neg_of_neg_of_pos (by linarith) h1))]
      rfl
    · rw [if_neg (by simp [h2, h1.ne]), if_pos (.inl (div_neg_of_pos_of_neg (by linarith) h1))]
      rfl
  unfold initDem
  rw [this]
  rfl

/-- A camera above a 20 x 20 DEM, with elevations from 0 to 10. -/
def demoDem : DemIn ℚ where
  t := ⟨1, 0, 0, 0, -1, 20⟩
  w := 20
  h := 20
  val r c := if r = 3 then none else some (if c = 5 then 10 else 2)
  crsEqual := true
  tb := .ok
  boundary z := .ok (rayBoundary [((4, 4), (1 / 50, 1 / 50)), ((33 / 2, 16), (-1 / 50, -1 / 50))] 100 z)
  zlo := -100
  zhi := 90
  zmap _ _ e := e.getD (-100)
  f32 x := x

example : (match initDem demoDem with
    | .ok o => decide ((o.h, o.w) = (12, 13) ∧ o.t = ⟨1, 0, 4, 0, -1, 16⟩ ∧ o.arr 0 0 = some 2 ∧ o.arr 0 1 = some 10)
    | .error _ => false) = true := by
  decide +kernel

/-- The same DEM with its rows from south to north. -/
example : (match initDem { demoDem with t := ⟨1, 0, 0, 0, 1, 0⟩ } with
    | .ok _ => false
    | .error e => e == .windowError) = true := by
  decide +kernel

end Verif.Dem
