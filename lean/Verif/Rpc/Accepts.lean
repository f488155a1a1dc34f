import Verif.Frame.Pinhole
import Verif.Rpc.Inverse

/-!
# C111: cameras of all types take the same arguments

`Camera.pixel_to_world_z` (orthority/camera.py:182-198) is documented once for all cameras: `ji` is a 2-by-N array, and `z` is a value or
an array, broadcast with `ji`.  The shapes and the data type of the heights decide whether a frame, RPC or GCP camera gives a result.
-/

set_option autoImplicit false

namespace Verif.RpcCam.Takes

open Verif.Frame

/-! ## Model -/

/-- The `z` argument, with no NaNs: a number, or an array of a shape, with an integer or floating point data type. -/
inductive Heights
  | scalar (z : ℝ)
  | arr (shape : List ℕ) (isInt : Bool) (vals : List ℝ)

/-- An array of one dimension has as many values as its shape says. -/
def Heights.Ok : Heights → Prop
  | .scalar _ => True
  | .arr shape _ vals => ∀ n, shape = [n] → vals.length = n

/-- The argument of a frame camera: numpy converts integers in the arithmetic of orthority/camera.py:876-879. -/
def Heights.frame : Heights → Frame.ZArg
  | .scalar z => .scalar z
  | .arr shape _ vals => .arr shape vals

/-- The values of `z` for orthority/camera.py:497. -/
def Heights.rpc : Heights → RpcCam.ZArg ℝ
  | .scalar z => .scalar (.val z)
  | .arr _ _ vals => .array (vals.map Fl.val)

/-- orthority/camera.py:501 and 551 `z[~mask] = np.nan`: NaN cannot be converted to an integer, which numpy does before it looks at the
mask.  (If `z` also has another length than the mask, either error may be the one raised; the model has `ValueError`.) -/
def assignNan : Heights → Res Unit
  | .arr _ true _ => .error .valueError
  | _ => .ok ()

/-- orthority/camera.py:491-511 `RpcCamera.pixel_to_world_z`, and 541-556 `GcpCamera.pixel_to_world_z` (with no `warp`), with the checks
of lines 71-86 (the same as those of frame cameras). -/
noncomputable def pixelToWorldZ (inv : ℝ × ℝ → ℝ → ℝ × ℝ) (warp : Option (ℝ × ℝ × ℝ → Fl ℝ × Fl ℝ × Fl ℝ)) (ji : PtArr (ℝ × ℝ))
    (z : Heights) : Res (List (Fl ℝ × Fl ℝ × Fl ℝ)) := do
  validateCoords ji 2
  validateZ z.frame (numCols ji)
  assignNan z
  RpcCam.pixelToWorldZ inv warp (pix ji.cols) z.rpc

/-! ## Specification -/

/-- A call gives a result. -/
def Accepts {α : Type} (r : Res α) : Prop := ∃ a, r = .ok a

/-- The heights are an integer array. -/
def Heights.IsInt : Heights → Prop
  | .arr _ isInt _ => isInt = true
  | .scalar _ => False

/-- The heights are an array of one value. -/
def Heights.One : Heights → Prop
  | .arr shape _ _ => shape = [1]
  | .scalar _ => False

/-! ## Theorems -/

theorem frame_ok {z : Heights} (h : z.Ok) : z.frame.Ok := by cases z <;> exact h

/-- C111: a frame camera with an exterior orientation accepts pixels in two rows, with heights that are a number, an array of one value,
an array with a value for each pixel, or any array of one dimension for one pixel; of any data type. -/
theorem C111_frame (c : FrameCam) (e : M3 × V3) (hext : c.ext = some e) (ji : PtArr (ℝ × ℝ)) (z : Heights) (hji : ji.Ok 2) (hz : z.Ok) :
    Accepts (c.pixelToWorldZ ji z.frame) ↔ ∃ n, ji.shape = [2, n] ∧ z.frame.Fits n := by
  constructor
  · rintro ⟨a, ha⟩
    by_contra h
    rw [C60_rejects c e hext ji z.frame h] at ha
    cases ha
  · rintro ⟨n, hs, hf⟩
    obtain ⟨R, T⟩ := e
    obtain ⟨Xs, hX, -⟩ := C60_points c R T hext ji z.frame n hji (frame_ok hz) hs hf
    exact ⟨Xs, hX⟩

theorem rpc_shape (inv : ℝ × ℝ → ℝ → ℝ × ℝ) (warp : Option (ℝ × ℝ × ℝ → Fl ℝ × Fl ℝ × Fl ℝ)) (ji : PtArr (ℝ × ℝ)) (z : Heights) (n : ℕ)
    (hs : ji.shape = [2, n]) (hf : z.frame.Fits n) (hi : ¬ z.IsInt) :
    pixelToWorldZ inv warp ji z = RpcCam.pixelToWorldZ inv warp (pix ji.cols) z.rpc := by
  unfold pixelToWorldZ
  have hv : validateCoords ji 2 = .ok () := by simp [validateCoords, hs]
  have hc : numCols ji = n := by simp [numCols, hs]
  rw [hv, Res.ok_bind, hc]
  cases z with
  | scalar z => rfl
  | arr shape isInt vals =>
    cases isInt with
    | true => exact absurd rfl hi
    | false =>
      obtain ⟨m, rfl, hm⟩ := hf
      have : validateZ (Heights.arr [m] false vals).frame n = .ok () := by
        simp only [validateZ, Heights.frame]
        rw [if_neg (by omega)]
      rw [this]
      rfl

/-- C111: RPC and GCP cameras accept the same, but for integer arrays, and an array of one value for other than one pixel. -/
theorem C111_rpc_partial (inv : ℝ × ℝ → ℝ → ℝ × ℝ) (warp : Option (ℝ × ℝ × ℝ → Fl ℝ × Fl ℝ × Fl ℝ)) (ji : PtArr (ℝ × ℝ)) (z : Heights)
    (hji : ji.Ok 2) (hz : z.Ok) :
    Accepts (pixelToWorldZ inv warp ji z) ↔ ∃ n, ji.shape = [2, n] ∧ z.frame.Fits n ∧ ¬ z.IsInt ∧ (z.One → n = 1) := by
  constructor
  · rintro ⟨a, ha⟩
    by_cases hs : ∃ n, ji.shape = [2, n]
    · obtain ⟨n, hs⟩ := hs
      have hv : validateCoords ji 2 = .ok () := by simp [validateCoords, hs]
      have hc : numCols ji = n := by simp [numCols, hs]
      have hn : ji.cols.length = n := hji n hs
      have hf : z.frame.Fits n := by
        by_contra hf
        have hvz : validateZ z.frame n = .error .valueError := by
          cases z with
          | scalar z => exact absurd trivial hf
          | arr shape isInt vals =>
            match shape with
            | [m] =>
              have : ¬ (m = 1 ∨ n = 1 ∨ m = n) := fun h => hf ⟨m, rfl, h⟩
              simp only [validateZ, Heights.frame]
              rw [if_pos (by omega)]
            | [] => rfl
            | _ :: _ :: _ => rfl
        unfold pixelToWorldZ at ha
        rw [hv, Res.ok_bind, hc, hvz] at ha
        cases ha
      have hi : ¬ z.IsInt := by
        intro hi
        cases z with
        | scalar z => exact hi
        | arr shape isInt vals =>
          cases hi
          unfold pixelToWorldZ at ha
          rw [hv, Res.ok_bind] at ha
          cases h : validateZ (Heights.arr shape true vals).frame (numCols ji) with
          | error e => rw [h] at ha; cases ha
          | ok u => rw [h, Res.ok_bind] at ha; cases ha
      refine ⟨n, hs, hf, hi, ?_⟩
      intro ho
      rw [rpc_shape inv warp ji z n hs hf hi] at ha
      by_contra hn1
      cases z with
      | scalar z => exact ho
      | arr shape isInt vals =>
        have hl := hz 1 ho
        match vals, hl with
        | [v], _ =>
          unfold RpcCam.pixelToWorldZ Heights.rpc broadcastZ at ha
          have hp : (pix ji.cols).length = n := by simp [pix, hn]
          generalize pix ji.cols = l at ha hp
          match l, hp with
          | [], _ => cases ha
          | [p], hp => exact hn1 hp.symm
          | p :: q :: l, _ => simp at ha; cases ha
    · exfalso
      have hv : validateCoords ji 2 = .error .valueError := by
        unfold validateCoords
        split
        · rename_i m n h
          rw [if_neg]
          rintro rfl
          exact hs ⟨n, h⟩
        · rfl
      unfold pixelToWorldZ at ha
      rw [hv] at ha
      cases ha
  · rintro ⟨n, hs, hf, hi, ho⟩
    rw [rpc_shape inv warp ji z n hs hf hi]
    have hn : (pix ji.cols).length = n := by simp [pix, hji n hs]
    cases z with
    | scalar z =>
      obtain ⟨out, h, -⟩ := C73_pointwise inv warp (pix ji.cols) (.scalar (.val z)) _ (.scalar _ _)
      exact ⟨out, h⟩
    | arr shape isInt vals =>
      obtain ⟨m, rfl, hm⟩ := hf
      have hl : vals.length = m := hz m rfl
      have key : ∀ l : List (Fl ℝ × Fl ℝ), l.length = m →
          Accepts (RpcCam.pixelToWorldZ inv warp l (.array (vals.map Fl.val))) := by
        intro l hlm
        obtain ⟨out, h, -⟩ := C73_pointwise inv warp l (.array (vals.map Fl.val)) _ (by
          have := RpcCam.Heights.array (vals.map (Fl.val (K := ℝ)))
          rwa [List.length_map, hl, ← hlm] at this)
        exact ⟨out, h⟩
      by_cases hmn : m = n
      · exact key _ (by omega)
      · have hn1 : n = 1 := by
          rcases hm with rfl | h | h
          · exact ho rfl
          · exact h
          · exact absurd h hmn
        subst hn1
        obtain ⟨p, hp⟩ := List.length_eq_one_iff.1 hn
        simp only [hp, Heights.rpc]
        rw [C73_one_pixel]
        exact key _ (by simp [hl])

/-- C111 fails: an integer array of heights that a frame camera takes is a `ValueError` of RPC and GCP cameras, whatever its values. -/
theorem C111_int_fails (c : FrameCam) (e : M3 × V3) (hext : c.ext = some e) (inv : ℝ × ℝ → ℝ → ℝ × ℝ)
    (warp : Option (ℝ × ℝ × ℝ → Fl ℝ × Fl ℝ × Fl ℝ)) (ji : PtArr (ℝ × ℝ)) (z : Heights) (hji : ji.Ok 2) (hz : z.Ok) (hi : z.IsInt)
    (hf : ∃ n, ji.shape = [2, n] ∧ z.frame.Fits n) :
    Accepts (c.pixelToWorldZ ji z.frame) ∧ pixelToWorldZ inv warp ji z = .error .valueError := by
  refine ⟨(C111_frame c e hext ji z hji hz).2 hf, ?_⟩
  obtain ⟨n, hs, hf⟩ := hf
  cases z with
  | scalar z => exact hi.elim
  | arr shape isInt vals =>
    cases hi
    obtain ⟨m, rfl, hm⟩ := hf
    have hv : validateCoords ji 2 = .ok () := by simp [validateCoords, hs]
    have hc : numCols ji = n := by simp [numCols, hs]
    have : validateZ (Heights.arr [m] true vals).frame n = .ok () := by
      simp only [validateZ, Heights.frame]
      rw [if_neg (by omega)]
    unfold pixelToWorldZ
    rw [hv, Res.ok_bind, hc, this]
    rfl

/-- C111 fails: an array of one height, which a frame camera uses for all pixels, is an error of RPC and GCP cameras unless there is one
pixel. -/
theorem C111_one_fails (c : FrameCam) (e : M3 × V3) (hext : c.ext = some e) (inv : ℝ × ℝ → ℝ → ℝ × ℝ)
    (warp : Option (ℝ × ℝ × ℝ → Fl ℝ × Fl ℝ × Fl ℝ)) (ji : PtArr (ℝ × ℝ)) (n : ℕ) (hji : ji.Ok 2) (hs : ji.shape = [2, n]) (hn : n ≠ 1)
    (v : ℝ) :
    Accepts (c.pixelToWorldZ ji (Heights.arr [1] false [v]).frame) ∧
    ¬ Accepts (pixelToWorldZ inv warp ji (.arr [1] false [v])) ∧ Accepts (pixelToWorldZ inv warp ji (.scalar v)) := by
  have hok : (Heights.arr [1] false [v]).Ok := fun n h => by
    have : 1 = n := by simpa using h
    simpa using this
  refine ⟨(C111_frame c e hext ji _ hji hok).2 ⟨n, hs, 1, rfl, Or.inl rfl⟩, ?_, ?_⟩
  · rw [C111_rpc_partial inv warp ji _ hji hok]
    rintro ⟨k, hk, -, -, ho⟩
    have : n = k := by simpa [hs] using hk
    exact hn (this.trans (ho rfl))
  · rw [C111_rpc_partial inv warp ji (.scalar v) hji trivial]
    exact ⟨n, hs, trivial, id, False.elim⟩

/-- Two pixels, with an array of one height, and two integer heights. -/
example (c : FrameCam) (e : M3 × V3) (hext : c.ext = some e) (inv : ℝ × ℝ → ℝ → ℝ × ℝ) :
    ¬ Accepts (pixelToWorldZ inv none ⟨[2, 2], [(0, 0), (1, 3)]⟩ (.arr [1] false [250])) ∧
    pixelToWorldZ inv none ⟨[2, 2], [(0, 0), (1, 3)]⟩ (.arr [2] true [250, 300]) = .error .valueError ∧
    Accepts (pixelToWorldZ inv none ⟨[2, 2], [(0, 0), (1, 3)]⟩ (.arr [2] false [250, 300])) := by
  have hji : (⟨[2, 2], [(0, 0), (1, 3)]⟩ : PtArr (ℝ × ℝ)).Ok 2 := fun n h => by
    have : 2 = n := by simpa using h
    simpa using this
  have hok : ∀ b, (Heights.arr [2] b [250, 300]).Ok := fun b n h => by
    have : 2 = n := by simpa using h
    simpa using this
  exact ⟨(C111_one_fails c e hext inv none _ 2 hji rfl (by norm_num) 250).2.1,
    (C111_int_fails c e hext inv none _ _ hji (hok _) rfl ⟨2, rfl, 2, rfl, Or.inr (Or.inr rfl)⟩).2,
    (C111_rpc_partial inv none _ _ hji (hok _)).2 ⟨2, rfl, ⟨2, rfl, Or.inr (Or.inr rfl)⟩, Bool.false_ne_true, fun h => by cases h⟩⟩

end Verif.RpcCam.Takes
