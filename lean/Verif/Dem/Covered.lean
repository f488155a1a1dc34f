import Verif.Dem.Sees
import Verif.Dem.Mask

/-!
# The warning that an ortho is not fully covered by the DEM (C124)
-/

set_option autoImplicit false

namespace Verif.Dem

open Matrix Verif.Frame Verif.Common Verif.Ortho
open Res (ok_bind error_bind)

noncomputable section

/-! ## Specification -/

/-- The world location (x, y) is inside the rectangle of the DEM. -/
def InDem (o : DemOut ℝ) (x y : ℝ) : Prop := ∃ u v : ℝ, (0 < u ∧ u < o.w) ∧ (0 < v ∧ v < o.h) ∧ o.t.apply u v = (x, y)

/-- The world location (x, y) is outside the rectangle of the DEM. -/
def OutDem (o : DemOut ℝ) (x y : ℝ) : Prop := ∀ u v : ℝ, o.t.apply u v = (x, y) → u < 0 ∨ o.w < u ∨ v < 0 ∨ o.h < v

/-- The surface on which the boundary is found is that of the DEM: its extremes are elevations of the DEM (`np.nanmin`, `np.nanmax`), and it
has no values outside the rectangle of the DEM (`cv2.remap` with `BORDER_TRANSPARENT` onto `nan`, orthority/camera.py:149-158). -/
structure SurfaceOf (o : DemOut ℝ) (s : Surface) : Prop where
  lo : ∃ r < o.h, ∃ c < o.w, o.arr r c = some s.minZ
  hi : ∃ r < o.h, ∃ c < o.w, o.arr r c = some s.maxZ
  all : ∀ r < o.h, ∀ c < o.w, ∀ x, o.arr r c = some x → s.minZ ≤ x ∧ x ≤ s.maxZ
  inside : ∀ x y z, s.surf x y = .val z → InDem o x y

/-- The inputs of `_mask_dem` for a DEM and the world boundary of the camera on it, orthority/ortho.py:305-316. -/
def boundaryMask (o : DemOut ℝ) (Xs : List V3) (fill : List (ℤ × ℤ) → ℕ → ℕ → Bool) : MaskIn ℝ :=
  ⟨o.arr, o.h, o.w, o.t, Xs.map fun X => (X 0, X 1), fill⟩

/-- The drawing function marks the vertices of the polygon that are in the array (cv2 documentation: the contour is included). -/
def MarksVertices (o : DemOut ℝ) (fill : List (ℤ × ℤ) → ℕ → ℕ → Bool) : Prop :=
  ∀ (l : List (ℤ × ℤ)) (p : ℤ × ℤ), p ∈ l → 0 ≤ p.1 → p.1 < o.w → 0 ≤ p.2 → p.2 < o.h → fill l p.2.toNat p.1.toNat = true

/-! ## Lemmas -/

/-- The point found for a pixel is where the surface has a value, or has the location of the ray at the lowest elevation. -/
theorem surfPoint_cases (P : ℝ → ℝ × ℝ × ℝ) (surf : ℝ → ℝ → Fl ℝ) {cap : ℕ} (hc : 1 < cap) {res : ℝ × ℝ} (hr : res.1 ≠ 0 ∧ res.2 ≠ 0)
    {minZ maxZ : ℝ} (hz : minZ ≤ maxZ) :
    (∃ z, surf (surfPoint P surf cap res minZ maxZ).1 (surfPoint P surf cap res minZ maxZ).2.1 = .val z) ∨
      ((surfPoint P surf cap res minZ maxZ).1 = (P minZ).1 ∧ (surfPoint P surf cap res minZ maxZ).2.1 = (P minZ).2.1) := by
  obtain ⟨k, hk, he, -, -, -, h⟩ := C41_first P surf cap (by omega) res minZ maxZ hz
  rcases h with ⟨z, h, -⟩ | h
  · left; rw [he]; exact ⟨z, h⟩
  · right
    obtain ⟨n, hn⟩ : ∃ n, n = raySteps cap res (P maxZ) (P minZ) := ⟨_, rfl⟩
    rw [he]
    rw [← hn] at h hk ⊢
    subst h
    by_cases h1 : n = 1
    · subst h1
      have hs : sampleZ minZ maxZ 1 (1 - 1) = maxZ := by simp [sampleZ]
      rw [hs]
      have h0 : ⌈max |((P minZ).1 - (P maxZ).1) / res.1| |((P minZ).2.1 - (P maxZ).2.1) / res.2|⌉ ≤ 0 := by
        unfold raySteps at hn
        omega
      have h0' := Int.ceil_le.1 h0
      obtain ⟨a, b⟩ := max_le_iff.1 h0'
      simp only [Int.cast_zero] at a b
      have a' := abs_eq_zero.1 (le_antisymm a (abs_nonneg _))
      have b' := abs_eq_zero.1 (le_antisymm b (abs_nonneg _))
      rw [div_eq_zero_iff] at a' b'
      constructor
      · rcases a' with a' | a'
        · linarith
        · exact absurd a' hr.1
      · rcases b' with b' | b'
        · linarith
        · exact absurd b' hr.2
    · have hd : (n : ℝ) - 1 ≠ 0 := by
        have : (2 : ℝ) ≤ n := by exact_mod_cast (by omega : 2 ≤ n)
        intro h; linarith
      have hs : sampleZ minZ maxZ n (n - 1) = minZ := by
        unfold sampleZ
        rw [Nat.cast_sub (by omega), Nat.cast_one, mul_div_cancel₀ _ hd]
        ring
      rw [hs]
      exact ⟨rfl, rfl⟩

/-- What a boundary on a surface is. -/
theorem boundary_points {c : FrameCam} {R : M3} {T : V3} (hext : c.ext = some (R, T)) {num : Option ℤ} {l : List (ℝ × ℝ)}
    (hl : c.boundary num = .ok l) (hd : ∀ p ∈ l, Down c R p) {s : Surface} (hr : ∀ r, s.res = some r → r.1 ≠ 0 ∧ r.2 ≠ 0)
    (hm : s.minZ ≤ s.maxZ) {Xs : List V3} (hX : c.worldBoundary (.surface s) num true = .ok Xs) :
    List.Forall₂ (fun X p => X = c.pointAtZ R T p (X 2) ∧ s.minZ ≤ X 2 ∧ X 2 ≤ s.maxZ ∧ X 2 ≤ T 2 ∧
      ((∃ z, s.surf (X 0) (X 1) = .val z) ∨ (X 0 = c.pointAtZ R T p s.minZ 0 ∧ X 1 = c.pointAtZ R T p s.minZ 1))) Xs l := by
  rcases horizon_cases hext with hf | hf
  swap
  · rw [worldBoundary_horizon hext hf] at hX; cases hX
  rw [worldBoundary_eq hext hf num l hl] at hX
  simp only at hX
  cases hres : s.res with
  | none => rw [hres] at hX; cases hX
  | some res =>
    rw [hres] at hX
    simp only [not_true_eq_false, if_false] at hX
    split_ifs at hX with hc
    have hle : s.minZ ≤ min s.maxZ (T 2) := le_min hm (not_lt.1 hc)
    unfold worldSurf at hX
    split_ifs at hX
    injection hX with hX
    subst hX
    rw [List.forall₂_map_left_iff, List.forall₂_same]
    intro p hp
    have hcap : 1 < maxRaySteps s.shape.1 s.shape.2 := lt_of_lt_of_le (by norm_num) (maxRaySteps_ge _ _)
    have hcase := surfPoint_cases (fun z => triple (c.pointAtZ R T p z)) s.surf hcap (hr res hres) hle
    obtain ⟨k, -, hk, h1, h2, -, -⟩ := C41_first (fun z => triple (c.pointAtZ R T p z)) s.surf (maxRaySteps s.shape.1 s.shape.2)
      (by omega) res s.minZ (min s.maxZ (T 2)) hle
    generalize sampleZ s.minZ _ _ k = zk at hk h1 h2
    have hp2 : c.pointAtZ R T p zk 2 = zk := by
      have hr : (R *ᵥ c.toCam p) 2 ≠ 0 := (hd p hp).ne
      show (R *ᵥ c.toCam p) 2 * ((zk - T 2) / (R *ᵥ c.toCam p) 2) + T 2 = zk
      field_simp
      ring
    rw [hk] at hcase
    have hXe : (![(triple (c.pointAtZ R T p zk)).1, (triple (c.pointAtZ R T p zk)).2.1, (triple (c.pointAtZ R T p zk)).2.2] : V3) =
        c.pointAtZ R T p zk := by
      funext i
      fin_cases i <;> rfl
    simp only [hk, hXe, hp2]
    exact ⟨trivial, h1, h2.trans (min_le_left _ _), h2.trans (min_le_right _ _), hcase⟩

theorem rint_inside {u : ℝ} {n : ℕ} (h0 : 0 < u) (h1 : u < n) : 0 ≤ rint (u - 1 / 2) ∧ rint (u - 1 / 2) < n := by
  have r := abs_le.1 (rint_near (u - 1 / 2)).1
  constructor
  · have : ((-1 : ℤ) : ℝ) < (rint (u - 1 / 2) : ℤ) := by push_cast; linarith [r.1, r.2]
    have := Int.cast_lt.1 this
    omega
  · have : ((rint (u - 1 / 2) : ℤ) : ℝ) < ((n : ℤ) : ℝ) := by push_cast; linarith [r.1, r.2]
    exact Int.cast_lt.1 this

theorem rint_outside {u : ℝ} {n : ℕ} (h : u < 0 ∨ n < u) : ¬ (0 ≤ rint (u - 1 / 2) ∧ rint (u - 1 / 2) < n) := by
  have r := abs_le.1 (rint_near (u - 1 / 2)).1
  rintro ⟨h0, h1⟩
  have g0 : (0 : ℝ) ≤ (rint (u - 1 / 2) : ℤ) := by exact_mod_cast h0
  have g1 : ((rint (u - 1 / 2) : ℤ) : ℝ) + 1 ≤ n := by exact_mod_cast h1
  rcases h with h | h <;> linarith [r.1, r.2]

theorem rint_closed {u : ℝ} {n : ℕ} (h0 : 0 ≤ rint (u - 1 / 2)) (h1 : rint (u - 1 / 2) < n) : 0 ≤ u ∧ u ≤ n := by
  have r := abs_le.1 (rint_near (u - 1 / 2)).1
  have g0 : (0 : ℝ) ≤ (rint (u - 1 / 2) : ℤ) := by exact_mod_cast h0
  have g1 : ((rint (u - 1 / 2) : ℤ) : ℝ) + 1 ≤ n := by exact_mod_cast h1
  constructor <;> linarith [r.1, r.2]

theorem mem_poly {o : DemOut ℝ} (ht : o.t.det ≠ 0) {Xs : List V3} {fill : List (ℤ × ℤ) → ℕ → ℕ → Bool} (q : ℤ × ℤ) :
    q ∈ polyJi (boundaryMask o Xs fill) ↔
      ∃ X ∈ Xs, ∃ u v : ℝ, o.t.apply u v = (X 0, X 1) ∧ q = (rint (u - 1 / 2), rint (v - 1 / 2)) := by
  simp only [polyJi, boundaryMask, List.map_map, List.mem_map, Function.comp]
  refine exists_congr fun X => and_congr_right fun _ => ⟨fun h => ?_, ?_⟩
  · have ha := o.t.apply_inv_apply ht (X 0) (X 1)
    refine ⟨(o.t.inv.apply (X 0) (X 1)).1, (o.t.inv.apply (X 0) (X 1)).2, ha, ?_⟩
    have hc := centre_inv o.t ht (o.t.inv.apply (X 0) (X 1)).1 (o.t.inv.apply (X 0) (X 1)).2
    rw [ha] at hc
    simp only at hc
    rw [← h, hc]
  · rintro ⟨u, v, ha, rfl⟩
    have hc := centre_inv o.t ht u v
    rw [ha] at hc
    simp only at hc
    rw [hc]

/-! ## Theorems -/

/-- C124: the ortho is refused, with `OrthorityError`, exactly when no pixel of the DEM that is drawn for the boundary of the image has an
elevation. -/
theorem C124_refused (o : DemOut ℝ) (Xs : List V3) (fill : List (ℤ × ℤ) → ℕ → ℕ → Bool) (crop mask : Bool) :
    maskDem (boundaryMask o Xs fill) crop mask = .error .orthorityError ↔
      ∀ r < o.h, ∀ c < o.w, fill (polyJi (boundaryMask o Xs fill)) r c = true → o.arr r c = none := by
  have h := C54_mask_error (boundaryMask o Xs fill) crop mask
  have hk : (∀ r < o.h, ∀ c < o.w, ¬ Kept (boundaryMask o Xs fill) r c) ↔
      ∀ r < o.h, ∀ c < o.w, fill (polyJi (boundaryMask o Xs fill)) r c = true → o.arr r c = none := by
    simp only [Kept, not_and, not_not]
    rfl
  rw [← hk]
  refine Iff.trans ⟨fun he => ⟨_, he⟩, ?_⟩ h
  rintro ⟨e, he⟩
  have : e = .orthorityError := by
    unfold maskDem at he
    split_ifs at he
    exact (Except.error.inj he).symm
  rw [he, this]

/-- C124: the ortho is warned about when a pixel that is drawn for the boundary has no elevation, or when a point of the boundary is outside
the DEM. -/
theorem C124_warns {o : DemOut ℝ} (ht : o.t.det ≠ 0) {Xs : List V3} {fill : List (ℤ × ℤ) → ℕ → ℕ → Bool} {crop mask : Bool}
    {mo : MaskOut ℝ} (hmo : maskDem (boundaryMask o Xs fill) crop mask = .ok mo)
    (h : (∃ r < o.h, ∃ c < o.w, fill (polyJi (boundaryMask o Xs fill)) r c = true ∧ o.arr r c = none) ∨ ∃ X ∈ Xs, OutDem o (X 0) (X 1)) :
    mo.warned = true := by
  rw [C54_mask_warning _ _ _ _ hmo]
  refine h.imp id ?_
  rintro ⟨X, hX, ho⟩
  have ha := o.t.apply_inv_apply ht (X 0) (X 1)
  have hout := ho _ _ ha
  refine ⟨_, (mem_poly ht _).2 ⟨X, hX, _, _, ha, rfl⟩, ?_⟩
  rintro ⟨h1, h2, h3, h4⟩
  rcases hout with h | h | h | h
  · exact rint_outside (.inl h) ⟨h1, h2⟩
  · exact rint_outside (.inr h) ⟨h1, h2⟩
  · exact rint_outside (.inl h) ⟨h3, h4⟩
  · exact rint_outside (.inr h) ⟨h3, h4⟩

/-- C124: a warning is given if the DEM leaves out a pixel of the image boundary: one whose ray is outside the DEM at all elevations from the
lowest to the highest of the DEM. -/
theorem C124_left_out {c : FrameCam} {R : M3} {T : V3} (hext : c.ext = some (R, T)) {num : Option ℤ} {l : List (ℝ × ℝ)}
    (hl : c.boundary num = .ok l) (hd : ∀ p ∈ l, Down c R p) {o : DemOut ℝ} (ht : o.t.det ≠ 0) {s : Surface} (hs : SurfaceOf o s)
    (hr : ∀ r, s.res = some r → r.1 ≠ 0 ∧ r.2 ≠ 0) {Xs : List V3} (hX : c.worldBoundary (.surface s) num true = .ok Xs)
    {fill : List (ℤ × ℤ) → ℕ → ℕ → Bool} {crop mask : Bool} {mo : MaskOut ℝ} (hmo : maskDem (boundaryMask o Xs fill) crop mask = .ok mo)
    {p : ℝ × ℝ} (hp : p ∈ l)
    (hout : ∀ z, s.minZ ≤ z → z ≤ s.maxZ → z ≤ T 2 → OutDem o (c.pointAtZ R T p z 0) (c.pointAtZ R T p z 1)) : mo.warned = true := by
  have hm : s.minZ ≤ s.maxZ := by
    obtain ⟨r, h1, k, h2, h3⟩ := hs.lo
    exact (hs.all r h1 k h2 _ h3).2
  have hb := boundary_points hext hl hd hr hm hX
  obtain ⟨X, hXm, h1, h2, h3, h4, -⟩ : ∃ X ∈ Xs, X = c.pointAtZ R T p (X 2) ∧ s.minZ ≤ X 2 ∧ X 2 ≤ s.maxZ ∧ X 2 ≤ T 2 ∧ True := by
    obtain ⟨i, hi, rfl⟩ := List.getElem_of_mem hp
    have hlen := hb.length_eq
    have := List.forall₂_iff_get.1 hb
    have hk := this.2 i (by omega) hi
    exact ⟨_, List.getElem_mem _, hk.1, hk.2.1, hk.2.2.1, hk.2.2.2.1, trivial⟩
  refine C124_warns ht hmo (.inr ⟨X, hXm, ?_⟩)
  have := hout _ h2 h3 h4
  rwa [← h1] at this

/-- C124: without the warning all points of the boundary are in the rectangle of the DEM, with its border, and every pixel of the DEM that is
drawn for the boundary is in the result, with its elevation. -/
theorem C124_held {o : DemOut ℝ} (ht : o.t.det ≠ 0) {Xs : List V3} {fill : List (ℤ × ℤ) → ℕ → ℕ → Bool} {crop mask : Bool}
    {mo : MaskOut ℝ} (hmo : maskDem (boundaryMask o Xs fill) crop mask = .ok mo) (h : mo.warned = false) :
    (∀ X ∈ Xs, ∃ u v : ℝ, (0 ≤ u ∧ u ≤ o.w) ∧ (0 ≤ v ∧ v ≤ o.h) ∧ o.t.apply u v = (X 0, X 1)) ∧
    ∀ r < o.h, ∀ k < o.w, fill (polyJi (boundaryMask o Xs fill)) r k = true →
      ∃ x, o.arr r k = some x ∧ ∃ r' < mo.out.h, ∃ k' < mo.out.w, mo.out.arr r' k' = some x ∧
        ∀ a b : ℝ, mo.out.t.apply (k' + a) (r' + b) = o.t.apply (k + a) (r + b) := by
  have hw := (C54_mask_warning _ _ _ _ hmo).not
  simp only [h, Bool.false_eq_true, not_false_iff, true_iff] at hw
  push Not at hw
  obtain ⟨w1, w2⟩ := hw
  refine ⟨fun X hX => ?_, fun r hr k hk hf => ?_⟩
  · have ha := o.t.apply_inv_apply ht (X 0) (X 1)
    obtain ⟨h1, h2, h3, h4⟩ := w2 _ ((mem_poly ht _).2 ⟨X, hX, _, _, ha, rfl⟩)
    exact ⟨_, _, rint_closed h1 h2, rint_closed h3 h4, ha⟩
  · have hne := w1 r hr k hk hf
    obtain ⟨x, hx⟩ := Option.ne_none_iff_exists'.1 hne
    obtain ⟨r0, c0, -, -, g1, g2, g3, -, -⟩ := C54_mask _ crop mask mo hmo
    have hkept : Kept (boundaryMask o Xs fill) r k := ⟨hf, hne⟩
    obtain ⟨q1, q2, q3, q4⟩ := g3 r hr k hk hkept
    refine ⟨x, hx, r - r0, by omega, k - c0, by omega, ?_, fun a b => ?_⟩
    · rw [g1 _ (by omega) _ (by omega), Nat.add_sub_cancel' q1, Nat.add_sub_cancel' q3, if_neg (by tauto)]
      exact hx
    · rw [g2, Nat.cast_sub q1, Nat.cast_sub q3]
      show o.t.apply _ _ = _
      congr 1 <;> ring

theorem not_warned {o : DemOut ℝ} (ht : o.t.det ≠ 0) (hval : ∀ r < o.h, ∀ k < o.w, o.arr r k ≠ none) {Xs : List V3} (hne : Xs ≠ [])
    {fill : List (ℤ × ℤ) → ℕ → ℕ → Bool} (hfill : MarksVertices o fill) (crop mask : Bool)
    (hin : ∀ X ∈ Xs, InDem o (X 0) (X 1)) :
    ∃ mo, maskDem (boundaryMask o Xs fill) crop mask = .ok mo ∧ mo.warned = false := by
  have hpoly : ∀ q ∈ polyJi (boundaryMask o Xs fill), 0 ≤ q.1 ∧ q.1 < o.w ∧ 0 ≤ q.2 ∧ q.2 < o.h := by
    intro q hq
    obtain ⟨X, hX, u, v, ha, rfl⟩ := (mem_poly ht q).1 hq
    obtain ⟨u', v', hu, hv, ha'⟩ := hin X hX
    have hinj : (u, v) = (u', v') := by
      rw [← o.t.inv_apply_apply ht u v, ha, ← ha', o.t.inv_apply_apply ht]
    obtain ⟨rfl, rfl⟩ := Prod.mk.injEq .. ▸ hinj
    exact ⟨(rint_inside hu.1 hu.2).1, (rint_inside hu.1 hu.2).2, (rint_inside hv.1 hv.2).1, (rint_inside hv.1 hv.2).2⟩
  obtain ⟨X, hX⟩ := List.exists_mem_of_ne_nil _ hne
  have ha := o.t.apply_inv_apply ht (X 0) (X 1)
  have hq := (mem_poly (fill := fill) ht _).2 ⟨X, hX, _, _, ha, rfl⟩
  obtain ⟨h1, h2, h3, h4⟩ := hpoly _ hq
  have hmark := hfill _ _ hq h1 h2 h3 h4
  cases hmo : maskDem (boundaryMask o Xs fill) crop mask with
  | error e =>
    exact absurd ⟨hmark, hval _ (by omega) _ (by omega)⟩
      ((C54_mask_error _ crop mask).1 ⟨e, hmo⟩ _ (show _ < o.h by omega) _ (show _ < o.w by omega))
  | ok mo =>
    refine ⟨mo, rfl, ?_⟩
    rw [← Bool.not_eq_true, C54_mask_warning _ _ _ _ hmo]
    rintro (⟨r, hr, k, hk, -, h⟩ | ⟨q, hq, h⟩)
    · exact hval r hr k hk h
    · exact h (hpoly q hq)

/-- C124: whatever ground the image shows, no warning is given for a DEM without missing elevations if the image boundary is inside the DEM at
the lowest elevation of the DEM. -/
theorem C124_lowest {c : FrameCam} {R : M3} {T : V3} (hext : c.ext = some (R, T)) {num : Option ℤ} {l : List (ℝ × ℝ)} (hne : l ≠ [])
    (hl : c.boundary num = .ok l) (hd : ∀ p ∈ l, Down c R p) {o : DemOut ℝ} (ht : o.t.det ≠ 0)
    (hval : ∀ r < o.h, ∀ k < o.w, o.arr r k ≠ none) {s : Surface} (hs : SurfaceOf o s)
    (hr : ∀ r, s.res = some r → r.1 ≠ 0 ∧ r.2 ≠ 0) {Xs : List V3} (hX : c.worldBoundary (.surface s) num true = .ok Xs)
    (hlow : ∀ p ∈ l, InDem o (c.pointAtZ R T p s.minZ 0) (c.pointAtZ R T p s.minZ 1))
    {fill : List (ℤ × ℤ) → ℕ → ℕ → Bool} (hfill : MarksVertices o fill) (crop mask : Bool) :
    ∃ mo, maskDem (boundaryMask o Xs fill) crop mask = .ok mo ∧ mo.warned = false := by
  have hm : s.minZ ≤ s.maxZ := by
    obtain ⟨r, h1, k, h2, h3⟩ := hs.lo
    exact (hs.all r h1 k h2 _ h3).2
  have hb := boundary_points hext hl hd hr hm hX
  have hXne : Xs ≠ [] := by
    rintro rfl
    have := hb.length_eq
    exact hne (List.eq_nil_of_length_eq_zero this.symm)
  refine not_warned ht hval hXne hfill crop mask fun X hXm => ?_
  obtain ⟨i, hi, rfl⟩ := List.getElem_of_mem hXm
  have hlen := hb.length_eq
  have hk := (List.forall₂_iff_get.1 hb).2 i hi (by omega)
  simp only [List.get_eq_getElem] at hk
  rcases hk.2.2.2.2 with ⟨z, hz⟩ | ⟨h0, h1⟩
  · exact hs.inside _ _ _ hz
  · rw [h0, h1]
    exact hlow _ (List.getElem_mem _)

/-- C124, the part that holds: no warning is given for the DEM of an `Ortho` object with a pinhole camera if the DEM file has all the ground
that the image can show, at the elevations between its extremes, without missing elevations.  Missing: points of the boundary that are exactly on
the border of the cropped DEM (`hedge`; those may round to a pixel outside it); lens distortion, with which
the crop may be too small (`C106_distorted_fails`). -/
theorem C124_quiet_partial {c : FrameCam} {R : M3} {T : V3} (h : IsPinhole c R T) (hw : 0 < c.imSize.1) (hh : 0 < c.imSize.2)
    {d : DemIn ℝ} (hb : CameraDem c d) (hcrs : d.crsEqual = true) (hz : ∀ x y e, d.zmap x y e = e.getD d.zlo) (hf : ∀ r k x, d.val r k = some x → d.f32 x = x)
    (hv : ∀ r < d.h, ∀ k < d.w, d.val r k ≠ none) (hrange : ∀ r k x, d.val r k = some x → d.zlo ≤ x ∧ x ≤ d.zhi) (hlo : d.zlo ≤ d.zhi)
    (ht : d.t.det ≠ 0) {o : DemOut ℝ} (ho : initDem d = .ok o) {s : Surface} (hs : SurfaceOf o s)
    (hr : ∀ r, s.res = some r → r.1 ≠ 0 ∧ r.2 ≠ 0) {num : Option ℤ} {Xs : List V3} (hne : Xs ≠ [])
    (hX : c.worldBoundary (.surface s) num true = .ok Xs)
    (hcover : ∀ p, InIm c.imSize p → ∀ z, s.minZ ≤ z → z ≤ s.maxZ → ∃ u v : ℝ, (0 ≤ u ∧ u ≤ d.w) ∧ (0 ≤ v ∧ v ≤ d.h) ∧
      d.t.apply u v = (c.pointAtZ R T p z 0, c.pointAtZ R T p z 1))
    (hedge : ∀ X ∈ Xs, ∀ u v : ℝ, o.t.apply u v = (X 0, X 1) → u ≠ 0 ∧ u ≠ o.w ∧ v ≠ 0 ∧ v ≠ o.h)
    {fill : List (ℤ × ℤ) → ℕ → ℕ → Bool} (hfill : MarksVertices o fill) (crop mask : Bool) :
    ∃ mo, maskDem (boundaryMask o Xs fill) crop mask = .ok mo ∧ mo.warned = false := by
  have hok : ∃ l₀, d.boundary d.zlo = .ok l₀ := by
    obtain ⟨first, win₂, win, e1, e2, e3, -⟩ := initDem_ok ho
    obtain ⟨b₁, hb₁, -⟩ := winAtZs_has e1
    cases hq : d.boundary d.zlo with
    | ok l₀ => exact ⟨l₀, rfl⟩
    | error e =>
      unfold demBounds stackBoundary at hb₁
      rw [hq] at hb₁
      cases hb₁
  obtain ⟨l₀, hok⟩ := hok
  obtain ⟨hdown, rays, hrays, hbox⟩ := dem_rays h hw hh hb hok
  have hext := (RayCam.of_pinhole h).ext
  have hl : ∃ l, c.boundary num = .ok l := by
    rcases horizon_cases hext with hf | hf
    · cases hq : c.boundary num with
      | ok l => exact ⟨l, rfl⟩
      | error e =>
        unfold FrameCam.worldBoundary at hX
        have hi : c.testInit = .ok (R, T) := by simp [FrameCam.testInit, hext]
        simp only [hi, ok_bind, hf, Bool.false_eq_true, if_false, hq] at hX
        cases hX
    · rw [worldBoundary_horizon hext hf] at hX; cases hX
  obtain ⟨l, hl⟩ := hl
  have hinl := C61_boundary c hw hh num l hl
  have hm : s.minZ ≤ s.maxZ := by
    obtain ⟨r, h1, k, h2, h3⟩ := hs.lo
    exact (hs.all r h1 k h2 _ h3).2
  have hbp := boundary_points hext hl (fun p hp => hdown p (hinl p hp)) hr hm hX
  obtain ⟨first, e1, hfirst⟩ := C54_frame_cover d o ho hcrs rays (T 2) hrays hz hrange hlo
  obtain ⟨r0, c0, i1, i2, i3, i4, harr, htr⟩ := C54_crop d o ho
  have hdet : o.t.det ≠ 0 := by
    obtain ⟨first', win₂, win, -, -, -, rfl⟩ := initDem_ok ho
    simpa [cropDem, Affine.det, Affine.window, Affine.mul, Affine.translation] using ht
  -- the elevations of the result are among those that are read first
  have hread : ∀ r < o.h, ∀ k < o.w, ∀ z, o.arr r k = some z →
      ∃ r' k' : ℕ, r' < first.height ∧ k' < first.width ∧ readWin d first r' k' = some z := by
    intro r hr k hk z hz
    obtain ⟨first', win₂, win, e1', -, e3, rfl⟩ := initDem_ok ho
    obtain rfl : first = first' := by rw [e1] at e1'; exact Except.ok.inj e1'
    obtain ⟨-, g, s1, s2, -⟩ := interI_ok (K := ℝ) e3
    have g1 := g.left; have g2 := g.right; have g3 := g.top; have g4 := g.bottom
    simp only [cropDem] at hr hk hz
    cases hq : readWin d first (win.rowOff - first.rowOff + (r : ℤ)).toNat (win.colOff - first.colOff + (k : ℤ)).toNat with
    | none => rw [hq] at hz; cases hz
    | some x =>
      rw [hq] at hz
      obtain rfl : d.f32 x = z := Option.some.inj hz
      refine ⟨(win.rowOff - first.rowOff + (r : ℤ)).toNat, (win.colOff - first.colOff + (k : ℤ)).toNat, by omega, by omega, ?_⟩
      rw [hq, hf _ _ x hq]
  refine not_warned hdet (fun r hr k hk => ?_) hne hfill crop mask fun X hXm => ?_
  · rw [harr r hr k hk]
    have := hv (r0 + r) (by omega) (c0 + k) (by omega)
    simpa using this
  · obtain ⟨i, hi, rfl⟩ := List.getElem_of_mem hXm
    have hlen := hbp.length_eq
    have hk := (List.forall₂_iff_get.1 hbp).2 i hi (by omega)
    simp only [List.get_eq_getElem] at hk
    have hp : l[i] ∈ l := List.getElem_mem _
    generalize l[i] = p at hk hp
    generalize Xs[i] = X at hk hXm
    obtain ⟨hXp, z1, z2, z3, -⟩ := hk
    obtain ⟨u, v, hu, hv', ha⟩ := hcover p (hinl p hp) (X 2) z1 z2
    rw [← hXp] at ha
    obtain ⟨ra, q1, ka, q2, q3⟩ := hs.lo
    obtain ⟨rb, q4, kb, q5, q6⟩ := hs.hi
    obtain ⟨ra', ka', t1, t2, t3⟩ := hread ra q1 ka q2 _ q3
    obtain ⟨rb', kb', t4, t5, t6⟩ := hread rb q4 kb q5 _ q6
    obtain ⟨u', v', u1, u2, v1, v2, ha'⟩ := hfirst [X 2] (by
      intro z hzm
      obtain rfl := List.mem_singleton.1 hzm
      exact ⟨⟨ra', ka', t1, t2, _, t3, z1⟩, ⟨rb', kb', t4, t5, _, t6, z2⟩⟩) u v hu.1 hu.2 hv'.1 hv'.2 (by
        have := hbox p (hinl p hp) (X 2) z3
        rw [← hXp] at this
        rw [ha]
        simpa using this)
    rw [ha] at ha'
    obtain ⟨n1, n2, n3, n4⟩ := hedge X hXm u' v' ha'
    exact ⟨u', v', ⟨lt_of_le_of_ne u1 n1.symm, lt_of_le_of_ne u2 n2⟩, ⟨lt_of_le_of_ne v1 n3.symm, lt_of_le_of_ne v2 n4⟩, ha'⟩

/-! ## Ground that is missed without a warning -/

/-- A camera that is 10 above (0, 0) and looks down, with the centre of projection left of the image: it shows what is to the right. -/
def sideCam : FrameCam :=
  { imSize := (4, 4), K := kMat (4, 4) (-5 / 2, 3 / 2), Kund := kMat (4, 4) (-5 / 2, 3 / 2), KundInv := (kMat (4, 4) (-5 / 2, 3 / 2))⁻¹
    ext := some (extrinsicR (0, 0, 0), ![0, 0, 10]), distort := true
    camToPix := dotK (kMat (4, 4) (-5 / 2, 3 / 2)), pixToCam := fun ji => (kMat (4, 4) (-5 / 2, 3 / 2))⁻¹ *ᵥ homog ji }

theorem isPinhole_sideCam : IsPinhole sideCam (extrinsicR (0, 0, 0)) ![0, 0, 10] := by
  refine ⟨(4, 4), [1], none, -1, 0, (0, 0, 0), true, ?_, rfl⟩
  have hK : getIntrinsic (4, 4) [1] none (-1) 0 = .ok (kMat (4, 4) (-5 / 2, 3 / 2)) := by
    simp only [getIntrinsic, focalPair, sigmaXY, centreXY]
    show Except.ok _ = _
    norm_num
  have hd : (kMat (4, 4) (-5 / 2, 3 / 2)).det ≠ 0 := by rw [kMat_det]; norm_num
  unfold pinhole
  rw [hK, ok_bind, if_neg hd]
  rfl

theorem sideCam_ray (ji : ℝ × ℝ) :
    extrinsicR (0, 0, 0) *ᵥ sideCam.toCam ji = ![(ji.1 + 5 / 2) / 4, -((ji.2 - 3 / 2) / 4), -1] := by
  have hd : (kMat (4, 4) (-5 / 2, 3 / 2)).det ≠ 0 := by rw [kMat_det]; norm_num
  have : sideCam.toCam ji = (kMat (4, 4) (-5 / 2, 3 / 2))⁻¹ *ᵥ homog ji := rfl
  rw [this, kMat_ray _ _ hd, extrinsicR_zero]
  funext i
  fin_cases i <;> simp [flipYZ, Matrix.mulVec, dotProduct, Fin.sum_univ_three]
  ring

theorem sideCam_point (ji : ℝ × ℝ) (z : ℝ) : sideCam.pointAtZ (extrinsicR (0, 0, 0)) ![0, 0, 10] ji z =
    ![(ji.1 + 5 / 2) / 4 * (10 - z), -((ji.2 - 3 / 2) / 4) * (10 - z), z] := by
  funext i
  simp only [FrameCam.pointAtZ, sideCam_ray]
  fin_cases i <;> simp [div_neg]

/-- A DEM from 5 to 15 in x, with elevation 5 in its first column and 0 in the others. -/
def cliffDem : DemOut ℝ where
  arr _ k := some (if k = 0 then 5 else 0)
  h := 8
  w := 10
  t := ⟨1, 0, 5, 0, -1, 4⟩

open Classical in
/-- The surface of `cliffDem` with nearest interpolation. -/
def cliffSurface : Surface :=
  ⟨(8, 10), true, 0, 5, some (1, -1), true, fun x y => if (5 < x ∧ x < 15) ∧ -4 < y ∧ y < 4 then .val (if x < 6 then 5 else 0) else .nan⟩

theorem cliff_surfaceOf : SurfaceOf cliffDem cliffSurface := by
  refine ⟨⟨0, by decide, 1, by decide, rfl⟩, ⟨0, by decide, 0, by decide, rfl⟩, fun r _ k _ x hx => ?_, fun x y z h => ?_⟩
  · have : (if k = 0 then (5 : ℝ) else 0) = x := Option.some.inj hx
    subst this
    split <;> simp [cliffSurface]
  · simp only [cliffSurface] at h
    split_ifs at h with h1 <;> (obtain ⟨⟨h1, h2⟩, h3, h4⟩ := h1)
    all_goals exact ⟨x - 5, 4 - y, ⟨by linarith, by simp [cliffDem]; linarith⟩, ⟨by linarith, by simp [cliffDem]; linarith⟩,
        by simp [cliffDem, Affine.apply]⟩

/-- C124: the warning is not given for a camera that is beside the DEM and shows ground outside it, at the elevation of the nearest pixels
of the DEM: the rays to that ground go on below it into the DEM. -/
theorem C124_near_fails : ∃ Xs, sideCam.worldBoundary (.surface cliffSurface) (some 400) true = .ok Xs ∧
    (∀ fill crop mask, MarksVertices cliffDem fill →
      ∃ mo, maskDem (boundaryMask cliffDem Xs fill) crop mask = .ok mo ∧ mo.warned = false) ∧
    ∃ p, InIm sideCam.imSize p ∧ SeenAt sideCam (extrinsicR (0, 0, 0)) ![0, 0, 10] ![4, 0, 5] p ∧ OutDem cliffDem 4 0 ∧
      ∀ r < cliffDem.h, cliffDem.arr r 0 = some 5 := by
  have hf : sideCam.horizonFov = .ok false := isPinhole_sideCam.horizon.2 fun p _ => by rw [sideCam_ray]; simp
  obtain ⟨l, hl, hlen⟩ := C42_square (K := ℝ) 4 (by norm_num) 100 (by norm_num)
  have hl' := C61_pinhole_boundary isPinhole_sideCam (by decide) (by decide) (some 400) l hl
  obtain ⟨hr, hd⟩ := C80_pinhole isPinhole_sideCam (by decide) (by decide) hf _ l hl'
  have hmin : min (5 : ℝ) ((![0, 0, 10] : V3) 2) = 5 := by simp; norm_num
  obtain ⟨Xs, hX, -⟩ := C80_surface hr hf (some 400) l hl' (fun p hp => (hd p hp).2) cliffSurface (1, -1) rfl rfl (by decide) rfl
    (by simp [cliffSurface]) (by simp [cliffSurface]) true (fun p hp => by
      obtain ⟨h1, h2, h3, h4⟩ := (hd p hp).1
      simp only [sideCam] at h2 h4
      simp only [not_true_eq_false, if_false, cliffSurface, hmin, sideCam_point, Short, triple]
      norm_num at h2 h4 ⊢
      constructor <;> rw [abs_le] <;> constructor <;> linarith)
  refine ⟨Xs, hX, fun fill crop mask hfill => ?_, (7 / 10, 3 / 2), ?_, ?_, ?_, fun r _ => rfl⟩
  · refine C124_lowest hr.ext (l := l) (by rintro rfl; simp at hlen) hl' (fun p hp => (hd p hp).2) ?_ (fun r _ k _ => by simp [cliffDem])
      cliff_surfaceOf (fun r h => ?_) hX (fun p hp => ?_) hfill crop mask
    · simp [cliffDem, Affine.det]
    · simp only [cliffSurface, Option.some.injEq] at h
      subst h
      norm_num
    · obtain ⟨h1, h2, h3, h4⟩ := (hd p hp).1
      simp only [sideCam] at h2 h4
      rw [sideCam_point]
      norm_num at h2 h4
      refine ⟨(p.1 + 5 / 2) / 4 * 10 - 5, 4 + (p.2 - 3 / 2) / 4 * 10, ⟨by linarith, by norm_num [cliffDem]; linarith⟩,
        ⟨by linarith, by norm_num [cliffDem]; linarith⟩, ?_⟩
      simp [cliffDem, Affine.apply, cliffSurface]
  · refine ⟨?_, ?_, ?_, ?_⟩ <;> simp [sideCam] <;> norm_num
  · have := (hr.point (p := (7 / 10, 3 / 2)) (by unfold Down; rw [sideCam_ray]; simp) 5).2.1 (by simp; norm_num)
    rw [sideCam_point] at this
    convert this using 1
    funext i
    fin_cases i <;> norm_num
  · intro u v h
    simp only [cliffDem, Affine.apply, Prod.mk.injEq] at h
    left
    linarith [h.1]

/-! ## A warning although all ground is in the DEM -/

theorem lmin_ge {x r : ℝ} {l : List ℝ} (hx : r ≤ x) (hl : ∀ y ∈ l, r ≤ y) : r ≤ lmin x l := by
  unfold lmin
  induction l generalizing x with
  | nil => exact hx
  | cons a l ih => exact ih (le_min hx (hl a (by simp))) fun y hy => hl y (by simp [hy])

theorem boundsOf_eq {pts : List (ℝ × ℝ)} {x0 y0 x1 y1 : ℝ} (h : ∀ p ∈ pts, (x0 ≤ p.1 ∧ p.1 ≤ x1) ∧ y0 ≤ p.2 ∧ p.2 ≤ y1)
    (h1 : ∃ p ∈ pts, p.1 = x0 ∧ p.2 = y1) (h2 : ∃ p ∈ pts, p.1 = x1 ∧ p.2 = y0) : boundsOf pts = .ok ⟨x0, y0, x1, y1⟩ := by
  cases pts with
  | nil => obtain ⟨p, hp, -⟩ := h1; cases hp
  | cons q l =>
    have low : ∀ (g : ℝ × ℝ → ℝ), ∀ p ∈ q :: l, lmin (g q) (l.map g) ≤ g p := by
      intro g p hp
      rcases List.mem_cons.1 hp with rfl | hp
      · exact (lmin_le _ _).1
      · exact (lmin_le _ _).2 _ (List.mem_map.2 ⟨p, hp, rfl⟩)
    have upp : ∀ (g : ℝ × ℝ → ℝ), ∀ p ∈ q :: l, g p ≤ lmax (g q) (l.map g) := by
      intro g p hp
      rcases List.mem_cons.1 hp with rfl | hp
      · exact (le_lmax _ _).1
      · exact (le_lmax _ _).2 _ (List.mem_map.2 ⟨p, hp, rfl⟩)
    obtain ⟨p1, m1, rfl, rfl⟩ := h1
    obtain ⟨p2, m2, rfl, rfl⟩ := h2
    have hl : ∀ {g : ℝ × ℝ → ℝ} {r : ℝ}, (∀ p ∈ q :: l, r ≤ g p) → r ≤ lmin (g q) (l.map g) := fun hg =>
      lmin_ge (hg q (by simp)) fun y hy => by obtain ⟨p, hp, rfl⟩ := List.mem_map.1 hy; exact hg p (by simp [hp])
    have hu : ∀ {g : ℝ × ℝ → ℝ} {r : ℝ}, (∀ p ∈ q :: l, g p ≤ r) → lmax (g q) (l.map g) ≤ r := fun hg =>
      lmax_le (hg q (by simp)) fun y hy => by obtain ⟨p, hp, rfl⟩ := List.mem_map.1 hy; exact hg p (by simp [hp])
    simp only [boundsOf, Except.ok.injEq, Bnds.mk.injEq]
    exact ⟨le_antisymm (low Prod.fst _ m1) (hl fun p hp => (h p hp).1.1), le_antisymm (low Prod.snd _ m2) (hl fun p hp => (h p hp).2.1),
      le_antisymm (hu fun p hp => (h p hp).1.2) (upp Prod.fst _ m2), le_antisymm (hu fun p hp => (h p hp).2.2) (upp Prod.snd _ m1)⟩

/-- A level DEM of 6 x 8 unit pixels, from (-4, -3) to (4, 3), under `demoCam`. -/
def plateDem (e : ℝ) : DemIn ℝ where
  t := ⟨1, 0, -4, 0, -1, 3⟩
  w := 8
  h := 6
  val _ _ := some e
  crsEqual := true
  tb := .ok
  boundary z := (demoCam.worldBoundary (.scalar z) none true).map (List.map fun X => (X 0, X 1))
  zlo := -10
  zhi := 5
  zmap _ _ x := x.getD (-10)
  f32 x := x

theorem plate_bounds (e : ℝ) (zs : List ℝ) (z : ℝ) (hz : z ∈ zs) (hle : ∀ z' ∈ zs, z ≤ z' ∧ z' ≤ 5) :
    demBounds (plateDem e) zs = .ok ⟨-(3 / 8 * (10 - z)), -(1 / 4 * (10 - z)), 3 / 8 * (10 - z), 1 / 4 * (10 - z)⟩ := by
  have hray := RayCam.of_pinhole isPinhole_demoCam
  have hbd : ∀ z, (plateDem e).boundary z = _ :=
    nadir_boundary hray (horizon_nadir hray rfl) (boundary_distort rfl) 0 0 (fun _ => 0) true (fun _ _ _ => 0)
  unfold demBounds
  rw [stack_ok hbd, ok_bind]
  have hz5 := (hle z hz).2
  rw [boundsOf_eq (x0 := -(3 / 8 * (10 - z))) (y0 := -(1 / 4 * (10 - z))) (x1 := 3 / 8 * (10 - z)) (y1 := 1 / 4 * (10 - z))]
  · rfl
  · intro q hq
    obtain ⟨z', hz', hq⟩ := List.mem_flatMap.1 hq
    obtain ⟨p, hp', rfl⟩ := List.mem_map.1 hq
    obtain ⟨g1, g2⟩ := hle z' hz'
    simp only
    rw [min_eq_left (by linarith), demo_toCam]
    simp [boundary8, show demoCam.imSize = (4, 3) from rfl] at hp'
    rcases hp' with rfl | rfl | rfl | rfl | rfl | rfl | rfl | rfl <;>
      simp <;> (refine ⟨⟨?_, ?_⟩, ?_, ?_⟩) <;> linarith
  · refine ⟨_, List.mem_flatMap.2 ⟨z, hz, List.mem_map.2 ⟨(0, 0), by simp [boundary8], rfl⟩⟩, ?_⟩
    rw [min_eq_left (by linarith), demo_toCam]
    constructor <;> simp <;> ring
  · refine ⟨_, List.mem_flatMap.2 ⟨z, hz, List.mem_map.2 ⟨(3, 2), by
      simp [boundary8, show demoCam.imSize = (4, 3) from rfl]; norm_num, rfl⟩⟩, ?_⟩
    rw [min_eq_left (by linarith), demo_toCam]
    constructor <;> simp <;> left <;> norm_num

theorem plate_win (e z : ℝ) (zs : List ℝ) (hz : z ∈ zs) (hle : ∀ z' ∈ zs, z ≤ z' ∧ z' ≤ 5) : winAtZs (plateDem e) zs =
    match (⟨0, 0, 8, 6⟩ : RWin ℝ).inter ⟨4 - 3 / 8 * (10 - z), 3 - 1 / 4 * (10 - z), 3 / 4 * (10 - z), 1 / 2 * (10 - z)⟩ with
    | .error _ => .error .orthorityError
    | .ok i => .ok (expandWindowToGrid i (0, 0)) := by
  have hz5 := (hle z hz).2
  unfold winAtZs
  rw [plate_bounds e zs z hz hle, ok_bind, fromBounds_northUp ⟨by norm_num [plateDem], rfl, rfl, by norm_num [plateDem]⟩
    (by simp only; linarith) (by simp only; linarith), ok_bind]
  simp only [plateDem]
  have : (⟨(-(3 / 8 * (10 - z)) - -4) / 1, (1 / 4 * (10 - z) - 3) / -1, (3 / 8 * (10 - z) - -(3 / 8 * (10 - z))) / 1,
      (-(1 / 4 * (10 - z)) - 1 / 4 * (10 - z)) / -1⟩ : RWin ℝ) =
      ⟨4 - 3 / 8 * (10 - z), 3 - 1 / 4 * (10 - z), 3 / 4 * (10 - z), 1 / 2 * (10 - z)⟩ := by
    rw [RWin.mk.injEq]
    refine ⟨?_, ?_, ?_, ?_⟩ <;> ring
  rw [this]
  push_cast
  generalize RWin.inter (K := ℝ) _ _ = r
  cases r <;> rfl

theorem plate_first (e : ℝ) : winAtZs (plateDem e) [-10, 5] = .ok ⟨0, 0, 8, 6⟩ := by
  rw [plate_win e (-10) _ (by simp) (by simp; norm_num)]
  norm_num [RWin.inter, expandWindowToGrid]

theorem plate_zs (e : ℝ) : demZs (plateDem e) ⟨0, 0, 8, 6⟩ = [e, e] := rfl

/-- The level DEM at 0 is all in the crop. -/
theorem plate_zero : initDem (plateDem 0) = .ok (cropDem (plateDem 0) ⟨0, 0, 8, 6⟩ ⟨0, 0, 8, 6⟩) := by
  unfold initDem
  rw [show (plateDem 0).zlo = -10 from rfl, show (plateDem 0).zhi = 5 from rfl, plate_first, ok_bind, plate_zs,
    plate_win 0 0 _ (by simp) (by simp)]
  have : (⟨0, 0, 8, 6⟩ : RWin ℝ).inter ⟨4 - 3 / 8 * (10 - 0), 3 - 1 / 4 * (10 - 0), 3 / 4 * (10 - 0), 1 / 2 * (10 - 0)⟩ =
      .ok ⟨1 / 4, 1 / 2, 15 / 2, 5⟩ := by
    norm_num [RWin.inter]
  rw [this]
  have : expandWindowToGrid (⟨1 / 4, 1 / 2, 15 / 2, 5⟩ : RWin ℝ) (0, 0) = ⟨0, 0, 8, 6⟩ := by
    norm_num [expandWindowToGrid, Int.fract]
  simp only [this]
  rfl

/-- The level DEM at 2 is cropped by a pixel at each side. -/
theorem plate_two : initDem (plateDem 2) = .ok (cropDem (plateDem 2) ⟨0, 0, 8, 6⟩ ⟨1, 1, 6, 4⟩) := by
  unfold initDem
  rw [show (plateDem 2).zlo = -10 from rfl, show (plateDem 2).zhi = 5 from rfl, plate_first, ok_bind, plate_zs,
    plate_win 2 2 _ (by simp) (by simp; norm_num)]
  have : (⟨0, 0, 8, 6⟩ : RWin ℝ).inter ⟨4 - 3 / 8 * (10 - 2), 3 - 1 / 4 * (10 - 2), 3 / 4 * (10 - 2), 1 / 2 * (10 - 2)⟩ =
      .ok ⟨1, 1, 6, 4⟩ := by
    norm_num [RWin.inter]
  rw [this]
  have : expandWindowToGrid (⟨1, 1, 6, 4⟩ : RWin ℝ) (0, 0) = ⟨1, 1, 6, 4⟩ := by
    norm_num [expandWindowToGrid]
  simp only [this]
  rfl

open Classical in
/-- The surface of a level part of the DEM, from column `x0` and row `y0`, of the given size. -/
def plateSurface (e : ℝ) (x0 x1 y0 y1 : ℝ) (shape : ℕ × ℕ) : Surface :=
  ⟨shape, true, e, e, some (1, -1), true, fun x y => if (x0 < x ∧ x < x1) ∧ y0 < y ∧ y < y1 then .val e else .nan⟩

theorem demo_point (ji : ℝ × ℝ) (z : ℝ) : demoCam.pointAtZ (extrinsicR (0, 0, 0)) ![0, 0, 10] ji z =
    ![(ji.1 - 3 / 2) / 4 * (10 - z), -((ji.2 - 1) / 4) * (10 - z), z] := by
  funext i
  simp only [FrameCam.pointAtZ, demoCam_ray]
  fin_cases i <;> simp [div_neg]

theorem demo_boundary : demoCam.boundary none = .ok (boundary8 demoCam.imSize) := boundary_distort rfl

theorem plate_boundary (e : ℝ) (he : e ≤ 10) (x0 x1 y0 y1 : ℝ) (shape : ℕ × ℕ) (hsh : shape.1 < 32767 ∧ shape.2 < 32767) :
    ∃ Xs, demoCam.worldBoundary (.surface (plateSurface e x0 x1 y0 y1 shape)) none true = .ok Xs ∧
      Xs = (boundary8 demoCam.imSize).map fun p => demoCam.pointAtZ (extrinsicR (0, 0, 0)) ![0, 0, 10] p e := by
  obtain ⟨hr, hd⟩ := C80_pinhole isPinhole_demoCam (by decide) (by decide) demoCam_horizon none _ demo_boundary
  have hmin : min e ((![0, 0, 10] : V3) 2) = e := by simpa using he
  obtain ⟨Xs, hX, hF⟩ := C80_surface hr demoCam_horizon none _ demo_boundary (fun p hp => (hd p hp).2)
    (plateSurface e x0 x1 y0 y1 shape) (1, -1) rfl rfl hsh rfl le_rfl (by simpa [plateSurface] using he) true (fun p _ => by
      simp only [not_true_eq_false, if_false, plateSurface, hmin]
      exact Short.refl _ _)
  refine ⟨Xs, hX, ?_⟩
  have : List.Forall₂ (fun X Y => X = Y) Xs ((boundary8 demoCam.imSize).map fun p =>
      demoCam.pointAtZ (extrinsicR (0, 0, 0)) ![0, 0, 10] p e) := by
    rw [List.forall₂_map_right_iff]
    refine hF.imp fun X p h => ?_
    have : X 2 = e := le_antisymm h.2.1 h.1
    rw [h.2.2.2.1, this]
  rwa [List.forall₂_eq_eq_eq] at this

/-- C124: the warning is given for a level DEM that has all the ground that the image shows, and a pixel more at each side: the ground ends
on the edges of DEM pixels, so the DEM is cropped there, and the points of the boundary at the right side round to the next pixel. -/
theorem C124_edge_fails : ∃ o Xs, initDem (plateDem 2) = .ok o ∧ CameraDem demoCam (plateDem 2) ∧
    SurfaceOf o (plateSurface 2 (-3) 3 (-2) 2 (4, 6)) ∧
    demoCam.worldBoundary (.surface (plateSurface 2 (-3) 3 (-2) 2 (4, 6))) none true = .ok Xs ∧
    (∀ p, InIm demoCam.imSize p → ∃ u v : ℝ, (1 ≤ u ∧ u ≤ (plateDem 2).w - 1) ∧ (1 ≤ v ∧ v ≤ (plateDem 2).h - 1) ∧
      (plateDem 2).t.apply u v = (demoCam.pointAtZ (extrinsicR (0, 0, 0)) ![0, 0, 10] p 2 0,
        demoCam.pointAtZ (extrinsicR (0, 0, 0)) ![0, 0, 10] p 2 1)) ∧
    ∀ fill crop mask mo, maskDem (boundaryMask o Xs fill) crop mask = .ok mo → mo.warned = true := by
  obtain ⟨Xs, hX, hXs⟩ := plate_boundary 2 (by norm_num) (-3) 3 (-2) 2 (4, 6) (by decide)
  refine ⟨_, Xs, plate_two, fun _ => rfl, ?_, hX, fun p hp => ?_, fun fill crop mask mo hmo => ?_⟩
  · refine ⟨⟨0, by decide, 0, by decide, rfl⟩, ⟨0, by decide, 0, by decide, rfl⟩, fun r _ k _ x hx => ?_, fun x y z h => ?_⟩
    · have : (2 : ℝ) = x := Option.some.inj hx
      subst this
      exact ⟨le_rfl, le_rfl⟩
    · simp only [plateSurface] at h
      split_ifs at h with h1
      obtain ⟨⟨h1, h2⟩, h3, h4⟩ := h1
      refine ⟨x + 3, 2 - y, ⟨by linarith, ?_⟩, ⟨by linarith, ?_⟩, ?_⟩
      · show _ < ((6 : ℕ) : ℝ); push_cast; linarith
      · show _ < ((4 : ℕ) : ℝ); push_cast; linarith
      · simp only [cropDem, Affine.window_apply]
        norm_num [plateDem, Affine.apply]
        constructor <;> ring
  · obtain ⟨h1, h2, h3, h4⟩ := hp
    simp only [show demoCam.imSize = (4, 3) from rfl] at h2 h4
    rw [demo_point]
    norm_num at h2 h4
    refine ⟨(p.1 - 3 / 2) / 4 * 8 + 4, 3 + (p.2 - 1) / 4 * 8, ⟨by linarith, by norm_num [plateDem]; linarith⟩,
      ⟨by linarith, by norm_num [plateDem]; linarith⟩, ?_⟩
    norm_num [plateDem, Affine.apply]
  · rw [C54_mask_warning _ _ _ _ hmo]
    refine .inr ⟨(rint ((6 : ℝ) - 1 / 2), rint ((4 : ℝ) - 1 / 2)), ?_, ?_⟩
    · refine (mem_poly ?_ _).2 ⟨demoCam.pointAtZ (extrinsicR (0, 0, 0)) ![0, 0, 10] (3, 2) 2, ?_, 6, 4, ?_, rfl⟩
      · norm_num [cropDem, plateDem, Affine.det, Affine.window, Affine.mul, Affine.translation]
      · rw [hXs]
        refine List.mem_map.2 ⟨_, ?_, rfl⟩
        simp [boundary8, show demoCam.imSize = (4, 3) from rfl]; norm_num
      · rw [demo_point]
        simp only [cropDem, Affine.window_apply]
        norm_num [plateDem, Affine.apply]
    · have : rint ((6 : ℝ) - 1 / 2) = 6 := by
        have h1 : (6 : ℝ) - 1 / 2 = 11 / 2 := by norm_num
        have hfl : ⌊(11 / 2 : ℝ)⌋ = 5 := by norm_num
        rw [h1, rint]
        simp only [Int.fract, hfl]
        norm_num
      rw [this]
      simp [boundaryMask, cropDem]

/-! ### Examples -/

/-- No warning for the level DEM at 0, whose crop has the ground with a margin. -/
example : ∃ o Xs, initDem (plateDem 0) = .ok o ∧ demoCam.worldBoundary (.surface (plateSurface 0 (-4) 4 (-3) 3 (6, 8))) none true = .ok Xs ∧
    ∃ mo, maskDem (boundaryMask o Xs fun _ _ _ => true) true true = .ok mo ∧ mo.warned = false := by
  obtain ⟨Xs, hX, hXs⟩ := plate_boundary 0 (by norm_num) (-4) 4 (-3) 3 (6, 8) (by decide)
  have hsurf : SurfaceOf (cropDem (plateDem 0) ⟨0, 0, 8, 6⟩ ⟨0, 0, 8, 6⟩) (plateSurface 0 (-4) 4 (-3) 3 (6, 8)) := by
    refine ⟨⟨0, by decide, 0, by decide, rfl⟩, ⟨0, by decide, 0, by decide, rfl⟩, fun r _ k _ x hx => ?_, fun x y z h => ?_⟩
    · have : (0 : ℝ) = x := Option.some.inj hx
      subst this
      exact ⟨le_rfl, le_rfl⟩
    · simp only [plateSurface] at h
      split_ifs at h with h1
      obtain ⟨⟨h1, h2⟩, h3, h4⟩ := h1
      refine ⟨x + 4, 3 - y, ⟨by linarith, ?_⟩, ⟨by linarith, ?_⟩, ?_⟩
      · show _ < ((8 : ℕ) : ℝ); push_cast; linarith
      · show _ < ((6 : ℕ) : ℝ); push_cast; linarith
      · simp only [cropDem, Affine.window_apply]
        norm_num [plateDem, Affine.apply]
  refine ⟨_, Xs, plate_zero, hX, ?_⟩
  have hne : Xs ≠ [] := by rw [hXs]; simp [boundary8]
  refine C124_quiet_partial isPinhole_demoCam (by decide) (by decide) (d := plateDem 0) (fun _ => rfl) rfl (fun _ _ _ => rfl)
    (fun _ _ _ _ => rfl) (fun _ _ _ _ => by simp [plateDem]) (fun r k x hx => ?_) (by norm_num [plateDem])
    (by norm_num [plateDem, Affine.det]) plate_zero hsurf (fun r h => ?_) hne hX (fun p hp z z1 z2 => ?_) (fun X hXm u v h => ?_)
    (fun _ _ _ _ _ _ _ => rfl) true true
  · have : (0 : ℝ) = x := Option.some.inj hx
    subst this
    norm_num [plateDem]
  · simp only [plateSurface, Option.some.injEq] at h
    subst h
    norm_num
  · obtain rfl : z = 0 := le_antisymm z2 z1
    obtain ⟨h1, h2, h3, h4⟩ := hp
    simp only [show demoCam.imSize = (4, 3) from rfl] at h2 h4
    rw [demo_point]
    norm_num at h2 h4
    refine ⟨(p.1 - 3 / 2) / 4 * 10 + 4, 3 + (p.2 - 1) / 4 * 10, ⟨by linarith, by norm_num [plateDem]; linarith⟩,
      ⟨by linarith, by norm_num [plateDem]; linarith⟩, ?_⟩
    norm_num [plateDem, Affine.apply]
  · rw [hXs] at hXm
    obtain ⟨p, hp, rfl⟩ := List.mem_map.1 hXm
    have hin : InIm demoCam.imSize p := C61_boundary demoCam (by decide) (by decide) none _ demo_boundary p hp
    obtain ⟨h1, h2, h3, h4⟩ := hin
    simp only [show demoCam.imSize = (4, 3) from rfl] at h2 h4
    rw [demo_point] at h
    simp only [cropDem, Affine.window_apply] at h
    norm_num [plateDem, Affine.apply] at h h2 h4
    obtain ⟨e1, e2⟩ := h
    refine ⟨?_, ?_, ?_, ?_⟩
    · intro h0; subst h0; linarith
    · intro h0
      have h0 : u = ((8 : ℕ) : ℝ) := h0
      push_cast at h0
      subst h0; linarith
    · intro h0; subst h0; linarith
    · intro h0
      have h0 : v = ((6 : ℕ) : ℝ) := h0
      push_cast at h0
      subst h0; linarith

/-- Ground that is left out: a DEM that begins right of what the image shows at its left side, at all elevations of the DEM. -/
example : ∃ Xs, sideCam.worldBoundary (.surface (plateSurface 0 8 18 (-4) 4 (8, 10))) none true = .ok Xs ∧
    ∀ fill crop mask mo, maskDem (boundaryMask ⟨fun _ _ => some 0, 8, 10, ⟨1, 0, 8, 0, -1, 4⟩⟩ Xs fill) crop mask = .ok mo →
      mo.warned = true := by
  have hf : sideCam.horizonFov = .ok false := isPinhole_sideCam.horizon.2 fun p _ => by rw [sideCam_ray]; simp
  have hl : sideCam.boundary none = .ok (boundary8 sideCam.imSize) := boundary_distort rfl
  obtain ⟨hr, hd⟩ := C80_pinhole isPinhole_sideCam (by decide) (by decide) hf none _ hl
  have hmin : min (0 : ℝ) ((![0, 0, 10] : V3) 2) = 0 := by simp
  obtain ⟨Xs, hX, -⟩ := C80_surface hr hf none _ hl (fun p hp => (hd p hp).2) (plateSurface 0 8 18 (-4) 4 (8, 10)) (1, -1) rfl rfl
    (by decide) rfl le_rfl (by simp [plateSurface]) true (fun p _ => by
      simp only [not_true_eq_false, if_false, plateSurface, hmin]
      exact Short.refl _ _)
  refine ⟨Xs, hX, fun fill crop mask mo hmo => ?_⟩
  refine C124_left_out hr.ext hl (fun p hp => (hd p hp).2) (by norm_num [Affine.det]) ?_ (fun r h => ?_) hX hmo (p := (0, 0))
    (by simp [boundary8]) fun z z1 z2 _ u v h => ?_
  · refine ⟨⟨0, by decide, 0, by decide, rfl⟩, ⟨0, by decide, 0, by decide, rfl⟩, fun r _ k _ x hx => ?_, fun x y z h => ?_⟩
    · have : (0 : ℝ) = x := Option.some.inj hx
      subst this
      exact ⟨le_rfl, le_rfl⟩
    · simp only [plateSurface] at h
      split_ifs at h with h1
      obtain ⟨⟨h1, h2⟩, h3, h4⟩ := h1
      exact ⟨x - 8, 4 - y, ⟨by linarith, by push_cast; linarith⟩, ⟨by linarith, by push_cast; linarith⟩, by simp [Affine.apply]⟩
  · simp only [plateSurface, Option.some.injEq] at h
    subst h
    norm_num
  · obtain rfl : z = 0 := le_antisymm z2 z1
    rw [sideCam_point] at h
    simp only [Affine.apply, Prod.mk.injEq] at h
    left
    have := h.1
    norm_num at this
    linarith

end
end Verif.Dem
