import Verif.Rpc.Props

/-!
# Pixel to world coordinates of RPC and GCP cameras (C73)
-/

set_option autoImplicit false
set_option linter.unusedSectionVars false

namespace Verif.RpcCam

variable {K : Type} [Field K] [DecidableEq K]

/-- The `z` argument: a number, or an array. -/
inductive ZArg (K : Type)
  | scalar (z : Fl K)
  | array (zs : List (Fl K))

/-- rasterio `RPCTransformer.xy(rows, cols, zs, offset='center')` (and `GCPTransformer.xy`) of a point: half a pixel is added to the
row and column, as `inv` (GDAL) takes coordinates (column, row) with the origin at the upper left corner of the first pixel. -/
def xyCenter (inv : K × K → K → K × K) (row col z : K) : K × K := inv (col + 1 / 2, row + 1 / 2) z

/-- orthority/camera.py:78-85 `_validate_z` and 495-499: the broadcast pixel coordinates and heights.  An index with a mask of
another length than the array is an `IndexError` (line 501). -/
def broadcastZ (ji : List (Fl K × Fl K)) (z : ZArg K) : Res (List (Fl K × Fl K × Fl K)) :=
  let bad : Bool := match z with
    | .scalar _ => false
    | .array zs => zs.length ≠ 1 && ji.length ≠ 1 && zs.length ≠ ji.length
  if bad then .error .valueError
  else
    let zs := match z with
      | .scalar z => ji.map fun _ => z
      | .array zs => zs
    let ji := match ji with
      | [p] => zs.map fun _ => p
      | _ => ji
    if ji.length ≠ zs.length then .error .indexError
    else .ok ((ji.zip zs).map fun p => (p.1.1, p.1.2, p.2))

/-- orthority/camera.py:491-511 `RpcCamera.pixel_to_world_z`: `warp` is the transform from RPC coordinates, of one point, when the
camera has a CRS. -/
def pixelToWorldZ (inv : K × K → K → K × K) (warp : Option (K × K × K → Fl K × Fl K × Fl K)) (ji : List (Fl K × Fl K)) (z : ZArg K) :
    Res (List (Fl K × Fl K × Fl K)) := do
  let pts ← broadcastZ ji z
  let geo := (gather pts).map fun p => let xy := xyCenter inv p.2.1 p.1 p.2.2; (xy.1, xy.2, p.2.2)
  match warp with
  | none => .ok (scatter pts (geo.map fun p => (.val p.1, .val p.2.1, .val p.2.2)))
  | some w => .ok (scatter pts (geo.map w))

/-- orthority/camera.py:441-448 `RpcCamera._validate_crs`: `warp` is the transform from RPC coordinates to the CRS. -/
def validateCrs (warp : K × K × K → Fl K × Fl K × Fl K) (r : Rpc K) : Res Unit :=
  if (warp (r.longOff, r.latOff, 0)).2.2 ≠ .val 0 then .error .orthorityError
  else if (warp (r.longOff, r.latOff, 1)).2.2 ≠ .val 1 then .error .orthorityError
  else .ok ()

/-- orthority/camera.py:533-539 `GcpCamera.world_to_pixel` of a point: `fwd` is GDAL's transform to coordinates (column, row) with
the origin at the upper left corner of the first pixel, which `rowcol` gives as (row, column). -/
def gcpWorldToPixel (fwd : K × K × K → K × K) (p : K × K × K) : K × K :=
  let rowcol := ((fwd p).2, (fwd p).1)
  (rowcol.2 - 1 / 2, rowcol.1 - 1 / 2)

/-- orthority/camera.py:541-556 `GcpCamera.pixel_to_world_z`. -/
def gcpPixelToWorldZ (inv : K × K → K → K × K) (ji : List (Fl K × Fl K)) (z : ZArg K) : Res (List (Fl K × Fl K × Fl K)) :=
  pixelToWorldZ inv none ji z

/-! ## Specification -/

/-- GDAL's reverse RPC transform is right at a pixel and height: it finds the coordinates (longitude, latitude) at the height that the RPC
model projects onto the pixel (upper left convention, half a pixel more than the RPC model). -/
def InvertsAt (inv : K × K → K → K × K) (r : Rpc K) (x y z : K) : Prop :=
  Defined r ((inv (x, y) z).1, (inv (x, y) z).2, z) ∧ project r ((inv (x, y) z).1, (inv (x, y) z).2, z) = (x - 1 / 2, y - 1 / 2)

/-- Transforms to and from the CRS of the camera are inverse at a point. -/
def InverseAt (fwd back : K × K × K → Fl K × Fl K × Fl K) (p : K × K × K) : Prop :=
  ∃ q : K × K × K, fwd p = (.val q.1, .val q.2.1, .val q.2.2) ∧ back q = (.val p.1, .val p.2.1, .val p.2.2)

/-- A pixel coordinate and height as numbers. -/
def pix (l : List (K × K)) : List (Fl K × Fl K) := l.map fun p => (.val p.1, .val p.2)

/-- The heights that are asked for, for `n` pixels. -/
inductive Heights : ℕ → ZArg K → List (Fl K) → Prop
  | scalar (n : ℕ) (z : Fl K) : Heights n (.scalar z) (List.replicate n z)
  | array (zs : List (Fl K)) : Heights zs.length (.array zs) zs

/-! ## Theorems -/

theorem scatter_map (f : K × K × K → Fl K × Fl K × Fl K) (pts : List (Fl K × Fl K × Fl K)) :
    scatter pts ((gather pts).map f) = pts.map fun p => match finite p with
      | some q => f q
      | none => (.nan, .nan, .nan) := by
  induction pts with
  | nil => rfl
  | cons p pts ih =>
    obtain ⟨x, y, z⟩ := p
    unfold gather at ih ⊢
    cases x <;> cases y <;> cases z <;> simp only [List.filterMap_cons, finite, scatter, List.map_cons, ih]

theorem broadcastZ_heights (ji : List (Fl K × Fl K)) (z : ZArg K) (zs : List (Fl K)) (h : Heights ji.length z zs) :
    broadcastZ ji z = .ok ((ji.zip zs).map fun p => (p.1.1, p.1.2, p.2)) ∧ zs.length = ji.length := by
  generalize hn : ji.length = n at h
  cases h with
  | scalar n z =>
    subst hn
    refine ⟨?_, by simp⟩
    have hr : ∀ l : List (Fl K × Fl K), l.map (fun _ => z) = List.replicate l.length z := fun l => by
      rw [List.map_const']
    unfold broadcastZ
    simp only [Bool.false_eq_true, if_false]
    match ji with
    | [] => rfl
    | [p] => rfl
    | p :: q :: l =>
      simp only [hr]
      rw [if_neg (by simp)]
  | array zs =>
    refine ⟨?_, rfl⟩
    unfold broadcastZ
    have hb : (zs.length ≠ 1 && ji.length ≠ 1 && zs.length ≠ ji.length) = false := by simp [hn]
    simp only [hb, Bool.false_eq_true, if_false]
    match ji, hn with
    | [], hn => simp [← hn]
    | [p], hn =>
      match zs, hn with
      | [z], _ => rfl
    | p :: q :: l, hn => simp [hn]

/-- What the camera gives for one pixel and height. -/
def worldPoint (inv : K × K → K → K × K) (warp : Option (K × K × K → Fl K × Fl K × Fl K)) (j i z : K) : Fl K × Fl K × Fl K :=
  let lon := (inv (j + 1 / 2, i + 1 / 2) z).1
  let lat := (inv (j + 1 / 2, i + 1 / 2) z).2
  match warp with
  | none => (.val lon, .val lat, .val z)
  | some w => w (lon, lat, z)

/-- C73: with one height for all pixels, or one for each, the result has one point for each pixel, that of the pixel alone; a NaN
coordinate or height gives a NaN point and changes no other. -/
theorem C73_pointwise (inv : K × K → K → K × K) (warp : Option (K × K × K → Fl K × Fl K × Fl K)) (ji : List (Fl K × Fl K)) (z : ZArg K)
    (zs : List (Fl K)) (h : Heights ji.length z zs) :
    ∃ out, pixelToWorldZ inv warp ji z = .ok out ∧ out.length = ji.length ∧
      ∀ (k : ℕ) (a b c : Fl K), ji[k]? = some (a, b) → zs[k]? = some c →
        (∀ j i z, a = .val j → b = .val i → c = .val z → out[k]? = some (worldPoint inv warp j i z)) ∧
        (a = .nan ∨ b = .nan ∨ c = .nan → out[k]? = some (.nan, .nan, .nan)) := by
  obtain ⟨hb, hl⟩ := broadcastZ_heights ji z zs h
  have key : ∀ f : K × K × K → Fl K × Fl K × Fl K,
      (∀ j i z, f (j, i, z) = worldPoint inv warp j i z) →
      (scatter ((ji.zip zs).map fun p => (p.1.1, p.1.2, p.2)) ((gather ((ji.zip zs).map fun p => (p.1.1, p.1.2, p.2))).map f)).length =
          ji.length ∧
      ∀ (k : ℕ) (a b c : Fl K), ji[k]? = some (a, b) → zs[k]? = some c →
        (∀ j i z, a = .val j → b = .val i → c = .val z →
          (scatter ((ji.zip zs).map fun p => (p.1.1, p.1.2, p.2)) ((gather ((ji.zip zs).map fun p => (p.1.1, p.1.2, p.2))).map f))[k]?
            = some (worldPoint inv warp j i z)) ∧
        (a = .nan ∨ b = .nan ∨ c = .nan →
          (scatter ((ji.zip zs).map fun p => (p.1.1, p.1.2, p.2)) ((gather ((ji.zip zs).map fun p => (p.1.1, p.1.2, p.2))).map f))[k]?
            = some (.nan, .nan, .nan)) := by
    intro f hf
    rw [scatter_map]
    refine ⟨by simp [hl], ?_⟩
    intro k a b c hji hzs
    have hz : (ji.zip zs)[k]? = some ((a, b), c) := by
      rw [List.getElem?_zip_eq_some]
      exact ⟨hji, hzs⟩
    constructor
    · rintro j i z rfl rfl rfl
      simp [hz, finite, hf]
    · intro hn
      have hfin : finite (a, b, c) = none := by
        rcases hn with rfl | rfl | rfl
        · rfl
        · cases a <;> rfl
        · cases a <;> cases b <;> rfl
      simp [hz, hfin]
  cases warp with
  | none =>
    refine ⟨_, by simp only [pixelToWorldZ, hb]; rfl, ?_⟩
    rw [List.map_map]
    exact key (fun p => (.val (inv (p.1 + 1 / 2, p.2.1 + 1 / 2) p.2.2).1, .val (inv (p.1 + 1 / 2, p.2.1 + 1 / 2) p.2.2).2, .val p.2.2))
      fun j i z => rfl
  | some w =>
    refine ⟨_, by simp only [pixelToWorldZ, hb]; rfl, ?_⟩
    rw [List.map_map]
    exact key (fun p => w ((inv (p.1 + 1 / 2, p.2.1 + 1 / 2) p.2.2).1, (inv (p.1 + 1 / 2, p.2.1 + 1 / 2) p.2.2).2, p.2.2))
      fun j i z => rfl

/-- C73: a single pixel is projected to all heights of an array. -/
theorem C73_one_pixel (inv : K × K → K → K × K) (warp : Option (K × K × K → Fl K × Fl K × Fl K)) (p : Fl K × Fl K)
    (zs : List (Fl K)) :
    pixelToWorldZ inv warp [p] (.array zs) = pixelToWorldZ inv warp (zs.map fun _ => p) (.array zs) := by
  unfold pixelToWorldZ
  suffices h : broadcastZ [p] (.array zs) = broadcastZ (zs.map fun _ => p) (.array zs) by rw [h]
  have hh : Heights (zs.map fun _ => p).length (.array zs) zs := by
    have := Heights.array zs
    rwa [← List.length_map (as := zs) (fun _ => p)] at this
  have hb := (broadcastZ_heights _ _ _ hh).1
  rw [hb]
  unfold broadcastZ
  simp

/-- C73: for pixels and heights at which GDAL inverts the model, and a CRS whose transforms are inverse at the points found, `world_to_pixel` of
`pixel_to_world_z` gives the pixels back. -/
theorem C73_inverse (inv : K × K → K → K × K) (r : Rpc K)
    (warps : Option ((K × K × K → Fl K × Fl K × Fl K) × (K × K × K → Fl K × Fl K × Fl K))) (l : List (K × K)) (z : ZArg K) (zs : List K)
    (hinv : ∀ p ∈ l.zip zs, InvertsAt inv r (p.1.1 + 1 / 2) (p.1.2 + 1 / 2) p.2)
    (hw : ∀ fwd back, warps = some (fwd, back) → ∀ p ∈ l.zip zs, InverseAt fwd back
      ((inv (p.1.1 + 1 / 2, p.1.2 + 1 / 2) p.2).1, (inv (p.1.1 + 1 / 2, p.1.2 + 1 / 2) p.2).2, p.2))
    (h : Heights l.length z (zs.map Fl.val)) (out : List (Fl K × Fl K × Fl K))
    (ho : pixelToWorldZ inv (warps.map Prod.fst) (pix l) z = .ok out) :
    worldToPixel (warps.map Prod.snd) r out = pix l := by
  have hpl : (pix l).length = l.length := by simp [pix]
  obtain ⟨out', ho', hlen, hpt⟩ := C73_pointwise inv (warps.map Prod.fst) (pix l) z (zs.map Fl.val) (by rw [hpl]; exact h)
  rw [ho] at ho'
  obtain rfl := Except.ok.inj ho'
  have hzl : zs.length = l.length := by
    have := (broadcastZ_heights (pix l) z (zs.map Fl.val) (by rw [hpl]; exact h)).2
    rw [List.length_map, hpl] at this
    exact this
  rw [C29_pointwise]
  apply List.ext_getElem?
  intro k
  rw [List.getElem?_map]
  by_cases hk : k < l.length
  · have hji : (pix l)[k]? = some (.val l[k].1, .val l[k].2) := by
      simp [pix, hk]
    have hzs : (zs.map Fl.val)[k]? = some (.val (zs[k]'(by omega))) := by
      simp [hzl, hk]
    rw [(hpt k _ _ _ hji hzs).1 _ _ _ rfl rfl rfl, hji]
    simp only [Option.map_some, Option.some.injEq]
    have hmem : (l[k], zs[k]'(by omega)) ∈ l.zip zs :=
      List.mem_of_getElem? (i := k) (List.getElem?_zip_eq_some.2 ⟨List.getElem?_eq_getElem hk, List.getElem?_eq_getElem (by omega)⟩)
    revert hmem
    generalize l[k] = p
    generalize zs[k]'(by omega) = zz
    intro hmem
    obtain ⟨hd, hp⟩ := hinv _ hmem
    simp only at hd hp
    have heval := evalPoint_val r _ hd
    rw [hp] at heval
    simp only [add_sub_cancel_right] at heval
    cases hwp : warps with
    | none => exact heval
    | some tb =>
      obtain ⟨fwd, back⟩ := tb
      obtain ⟨q, hq1, hq2⟩ := hw fwd back hwp _ hmem
      simp only at hq1 hq2
      simp only [Option.map_some, worldPoint, hq1, toRpcCrs, hq2]
      exact heval
  · have h1 : out[k]? = none := by rw [List.getElem?_eq_none_iff, hlen, hpl]; omega
    have h2 : (pix l)[k]? = none := by rw [List.getElem?_eq_none_iff, hpl]; omega
    rw [h1, h2]; rfl

/-- C73: a point is at the height that is asked for, when the CRS keeps ellipsoidal heights there. -/
theorem C73_heights (inv : K × K → K → K × K) (warp : Option (K × K × K → Fl K × Fl K × Fl K)) (j i z : K)
    (hw : ∀ w, warp = some w → (w ((inv (j + 1 / 2, i + 1 / 2) z).1, (inv (j + 1 / 2, i + 1 / 2) z).2, z)).2.2 = .val z) :
    (worldPoint inv warp j i z).2.2 = .val z := by
  cases warp with
  | none => rfl
  | some w => exact hw w rfl

/-- C73: with one height in an array, and more than one pixel, `IndexError` is raised, though `_validate_z` allows it. -/
theorem C73_single_z_fails (inv : K × K → K → K × K) (warp : Option (K × K × K → Fl K × Fl K × Fl K)) (ji : List (Fl K × Fl K))
    (hji : 1 < ji.length) (z : Fl K) : pixelToWorldZ inv warp ji (.array [z]) = .error .indexError := by
  unfold pixelToWorldZ
  suffices h : broadcastZ ji (.array [z]) = .error .indexError by rw [h]; rfl
  unfold broadcastZ
  match ji, hji with
  | p :: q :: l, _ => simp

/-- C73: other numbers of heights are refused. -/
theorem C73_refuses (inv : K × K → K → K × K) (warp : Option (K × K × K → Fl K × Fl K × Fl K)) (ji : List (Fl K × Fl K))
    (zs : List (Fl K)) (h1 : zs.length ≠ 1) (h2 : ji.length ≠ 1) (h3 : zs.length ≠ ji.length) :
    pixelToWorldZ inv warp ji (.array zs) = .error .valueError := by
  unfold pixelToWorldZ
  suffices h : broadcastZ ji (.array zs) = .error .valueError by rw [h]; rfl
  unfold broadcastZ
  simp [h1, h2, h3]

/-- C73: a CRS is accepted exactly when it keeps the heights 0 and 1 at the centre of the model. -/
theorem C73_crs (warp : K × K × K → Fl K × Fl K × Fl K) (r : Rpc K) :
    (validateCrs warp r = .ok () ↔ ∀ z, z = 0 ∨ z = 1 → (warp (r.longOff, r.latOff, z)).2.2 = .val z) ∧
    (validateCrs warp r ≠ .ok () → validateCrs warp r = .error .orthorityError) := by
  unfold validateCrs
  by_cases h0 : (warp (r.longOff, r.latOff, 0)).2.2 = .val 0
  · by_cases h1 : (warp (r.longOff, r.latOff, 1)).2.2 = .val 1
    · simp [h0, h1]
    · simp only [h0, ne_eq, not_true, if_false, h1, not_false_eq_true, if_true]
      exact ⟨⟨fun h => (by cases h), fun h => absurd (h 1 (Or.inr rfl)) h1⟩, fun _ => trivial⟩
  · simp only [ne_eq, h0, not_false_eq_true, if_true]
    exact ⟨⟨fun h => (by cases h), fun h => absurd (h 0 (Or.inl rfl)) h0⟩, fun _ => trivial⟩

/-- C73: a CRS with heights relative to a surface that is zero at the centre of the model only is accepted, and the points are then
not at the ellipsoidal heights that are asked for. -/
theorem C73_crs_fails [CharZero K] (r : Rpc K) : ∃ fwd back : K × K × K → Fl K × Fl K × Fl K, (∀ p, InverseAt fwd back p) ∧
    validateCrs fwd r = .ok () ∧ ∃ (inv : K × K → K → K × K) (j i z : K), (worldPoint inv (some fwd) j i z).2.2 ≠ .val z := by
  refine ⟨fun p => (.val p.1, .val p.2.1, .val (p.2.2 - (p.1 - r.longOff))),
    fun p => (.val p.1, .val p.2.1, .val (p.2.2 + (p.1 - r.longOff))), ?_, ?_, fun _ _ => (r.longOff + 1, 0), 0, 0, 0, ?_⟩
  · intro p
    exact ⟨(p.1, p.2.1, p.2.2 - (p.1 - r.longOff)), rfl, by simp⟩
  · simp [validateCrs]
  · simp [worldPoint]

/-- C73: `world_to_pixel` of a GCP camera gives back the pixels of `pixel_to_world_z`, when GDAL's transforms are inverse there. -/
theorem C73_gcp_inverse (fwd : K × K × K → K × K) (inv : K × K → K → K × K) (l : List (K × K)) (z : ZArg K) (zs : List K)
    (hinv : ∀ p ∈ l.zip zs, fwd ((inv (p.1.1 + 1 / 2, p.1.2 + 1 / 2) p.2).1, (inv (p.1.1 + 1 / 2, p.1.2 + 1 / 2) p.2).2, p.2) =
      (p.1.1 + 1 / 2, p.1.2 + 1 / 2)) (h : Heights l.length z (zs.map Fl.val)) :
    ∃ pts : List (K × K × K), gcpPixelToWorldZ inv (pix l) z = .ok (pts.map fun p => (.val p.1, .val p.2.1, .val p.2.2)) ∧
      pts.map (gcpWorldToPixel fwd) = l ∧ pts.map (fun p => p.2.2) = zs := by
  have hpl : (pix l).length = l.length := by simp [pix]
  obtain ⟨hb, hzl⟩ := broadcastZ_heights (pix l) z (zs.map Fl.val) (by rw [hpl]; exact h)
  rw [List.length_map, hpl] at hzl
  refine ⟨(l.zip zs).map fun p =>
    ((inv (p.1.1 + 1 / 2, p.1.2 + 1 / 2) p.2).1, (inv (p.1.1 + 1 / 2, p.1.2 + 1 / 2) p.2).2, p.2), ?_, ?_, ?_⟩
  · simp only [gcpPixelToWorldZ, pixelToWorldZ, hb]
    change Except.ok (scatter _ _) = _
    congr 1
    rw [List.map_map, scatter_map]
    simp only [List.map_map, pix, List.zip_map]
    apply List.map_congr_left
    intro p _
    rfl
  · rw [List.map_map]
    conv_rhs => rw [← List.map_fst_zip (l₁ := l) (l₂ := zs) (by omega)]
    apply List.map_congr_left
    intro p hp
    simp only [Function.comp_apply, gcpWorldToPixel, hinv p hp, add_sub_cancel_right]
  · rw [List.map_map]
    conv_rhs => rw [← List.map_snd_zip (l₁ := l) (l₂ := zs) (by omega)]
    apply List.map_congr_left
    intro p _
    rfl

/-- The model j = 10 L + 5, i = 20 P + 7 has an inverse, and in a CRS with heights 3 m higher `world_to_pixel` gives pixels back. -/
example : worldToPixel (some fun p => (.val p.1, .val p.2.1, .val (p.2.2 - 3))) { exRpc with lineDen := exRpc.sampDen }
      [(.val 3, .val 4, .val 103), (.val 5, .val 2, .val 203)] = pix [(35, 87), (55, 47)] := by
  have hinv : ∀ x y z, InvertsAt (fun p _ => ((p.1 - 1 / 2 - 5) / 10, (p.2 - 1 / 2 - 7) / 20)) { exRpc with lineDen := exRpc.sampDen } x y z := by
    intro x y z
    refine ⟨⟨by simp [exRpc], by simp [exRpc], by simp [exRpc], ?_, ?_⟩, ?_⟩
    · simp [polySpec, exRpc, rpc00b]
    · simp [polySpec, exRpc, rpc00b]
    · simp [project, normXyz, poly, exRpc]
  refine C73_inverse _ _ (some (fun p => (.val p.1, .val p.2.1, .val (p.2.2 + 3)), _)) _ (.array [.val 100, .val 200]) [100, 200]
    (fun p _ => hinv _ _ _) ?_ (Heights.array [.val 100, .val 200]) _ (by decide +kernel)
  intro fwd back h p _
  simp only [Option.some.injEq, Prod.mk.injEq] at h
  obtain ⟨rfl, rfl⟩ := h
  exact ⟨((p.1.1 - 5) / 10, (p.1.2 - 7) / 20, p.2 + 3), by simp, by simp⟩

example : pixelToWorldZ (K := ℚ) (fun p z => (p.1 + z, p.2)) none [(.val 1, .val 2), (.nan, .val 3)] (.scalar (.val 4)) =
    .ok [(.val (11 / 2), .val (5 / 2), .val 4), (.nan, .nan, .nan)] := by decide +kernel

end Verif.RpcCam
