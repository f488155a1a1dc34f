import Verif.Cli.Errors
import Verif.Factory.Raised

/-!
# `oty rpc` with `--gcp-refine` (C72)

The exceptions of `RpcCameras.refine` (`Verif.Factory.Raised`) in the `rpc` command (`Verif.Cli.Errors`).
-/

set_option autoImplicit false

namespace Verif.Cli

open Verif.Factory Verif.RpcCam

variable {K : Type} [Field K] {Cr Im M C : Type}

/-- C72, the part that holds for refinement: when reading GCPs raises nothing but `FileNotFoundError` and the exceptions of orthority, some
GCPs are read, and no image has one GCP only when two are needed, `oty rpc` goes on with the images, or ends with a usage error, having
written nothing.  Missing: refinement without images, and with too few GCPs (`C72_no_sources_fails`, `C72_few_gcps_fails`). -/
theorem C72_refined_partial (j : Job Cr Im) (wgs84 : Cr) (option : Option Cr) (fs : Fs Cr Im) (lstsq : List (K × K) → Tform K)
    (method : Method) (env : RpcEnv M (Rpc K) (List (Gcp K)) C) (hr : ∀ r g, env.refine r g = refineRpc lstsq method r g)
    (ht : ∀ g, env.truthy g = true ↔ g ≠ []) (rd : GcpReaders (List (Gcp K))) (w : WithGcps M (Rpc K) (List (Gcp K)) C)
    (hok : Dict.Ok w.state.params) (a : GcpArg (List (Gcp K)))
    (hread : ∀ e, rd.read a = .error e → e = .fileNotFoundError ∨ DataErr e) (hsome : rd.read a ≠ .ok none)
    (hfew : ∀ g, rd.read a = .ok (some g) → ∀ k gs, (k, gs) ∈ g → method = .shiftDrift → gs.length ≠ 1) :
    rpcCmd j wgs84 option (.ok ()) (some (env.refineArg rd w a).1) fs = (fs, .error .badParameter) ∨
    rpcCmd j wgs84 option (.ok ()) (some (env.refineArg rd w a).1) fs = orthoCmd j (some (option.getD wgs84)) fs := by
  cases h : (env.refineArg rd w a).1 with
  | ok u =>
    right
    cases option <;> rfl
  | error e =>
    left
    cases h1 : rd.read a with
    | error e' =>
      have : (env.refineArg rd w a).1 = .error e' := by simp [RpcEnv.refineArg, h1]
      rw [h] at this
      simp only [Except.error.injEq] at this
      subst this
      have := hread _ h1
      rw [← isOrthority_iff] at this
      simp [rpcCmd, this]
    | ok o =>
      cases o with
      | none => exact absurd h1 hsome
      | some g =>
        obtain ⟨_, pre, k, p, post, pre', gs, _, _, h4, h5, h6, _⟩ := C123_refine_partial env rd w _ a g hok h1 e (Prod.ext h rfl)
        rw [hr] at h6
        exfalso
        have hne := (ht gs).1 h5
        have hlen : 0 < gs.length := List.length_pos_iff.2 hne
        have hmem : ∃ k', (k', gs) ∈ g := by
          rcases h4 with h4 | ⟨_, h4⟩
          · exact ⟨_, Dict.mem_of_get? h4⟩
          · exact ⟨_, Dict.mem_of_get? h4⟩
        obtain ⟨k', hk⟩ := hmem
        have := hfew g h1 k' gs hk
        unfold refineRpc at h6
        cases method with
        | shift => simp [hne] at h6
        | shiftDrift =>
          have h2 : ¬ gs.length < 2 := by have := this rfl; omega
          simp [h2] at h6

/-- Where C72 fails: without images, `--gcp-refine tags` ends the command with the traceback of an `AttributeError` (with `--rpc-param`, as
when exporting parameters; without it there are no parameters). -/
theorem C72_no_sources_fails {R G : Type} (j : Job Cr Im) (wgs84 : Cr) (option : Option Cr) (fs : Fs Cr Im) (env : RpcEnv M R G C)
    (rd : GcpReaders G) (w : WithGcps M R G C) (hw : w.state.params ≠ []) :
    rpcCmd j wgs84 option (.ok ()) (some (env.refineArg rd w (.images [])).1) fs = (fs, .error .attributeError) ∧
    ¬ UsageErr .attributeError := by
  have h : (env.refineArg rd w (.images [])).1 = .error .attributeError := by
    simp [RpcEnv.refineArg, GcpReaders.read, hw]
  rw [h]
  exact ⟨by simp [rpcCmd, isOrthority], by simp [UsageErr]⟩

/-- Where C72 fails: refinement by shift and drift of an image with one GCP ends the command with the traceback of a `ValueError`. -/
theorem C72_few_gcps_fails (j : Job Cr Im) (wgs84 : Cr) (option : Option Cr) (fs : Fs Cr Im) :
    rpcCmd j wgs84 option (.ok ()) (some (exDrift.refineArg ⟨fun _ => .error .fileNotFoundError, fun _ => .ok exBad⟩ exTwo
      (.file "gcps.geojson")).1) fs = (fs, .error .valueError) ∧ ¬ UsageErr .valueError := by
  have h : (exDrift.refineArg ⟨fun _ => .error .fileNotFoundError, fun _ => .ok exBad⟩ exTwo (.file "gcps.geojson")).1 =
      .error .valueError := by decide +kernel
  rw [h]
  exact ⟨by simp [rpcCmd, isOrthority], by simp [UsageErr]⟩

/-- `C72_refined_partial`, for two GCPs of one image. -/
example (j : Job Cr Im) (wgs84 : Cr) (fs : Fs Cr Im) :
    rpcCmd j wgs84 none (.ok ()) (some (exDrift.refineArg ⟨fun _ => .error .fileNotFoundError, fun _ => .ok [("a.tif", farGcps)]⟩ exTwo
      (.file "gcps.geojson")).1) fs = (fs, .error .badParameter) ∨
    rpcCmd j wgs84 none (.ok ()) (some (exDrift.refineArg ⟨fun _ => .error .fileNotFoundError, fun _ => .ok [("a.tif", farGcps)]⟩ exTwo
      (.file "gcps.geojson")).1) fs = orthoCmd j (some wgs84) fs :=
  C72_refined_partial j wgs84 none fs lstsqMin .shiftDrift exDrift (fun _ _ => rfl) (fun g => by simp [exDrift, exShift]) _ exTwo
    (by simp [Dict.Ok, exTwo]) (.file "gcps.geojson") (by simp [GcpReaders.read, Except.map]) (by simp [GcpReaders.read, Except.map])
    (by
      intro g hg k gs hm _
      simp only [GcpReaders.read, Except.map] at hg
      simp at hg
      subst hg
      simp at hm
      rw [hm.2]
      decide)

end Verif.Cli
