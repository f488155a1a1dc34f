import Verif.Cli.Command
import Verif.Rpc.Inverse

/-!
# C87: the `rpc` command from start to end
-/

set_option autoImplicit false

namespace Verif.Command

open Verif.Ortho Verif.Dem Verif.Common Verif.Files Verif.OrthoProcess Verif.Factory Verif.Cli Verif.RpcCam

variable {S M G : Type}

/-! ## Model -/

/-- The factory of the `rpc` command, orthority/cli.py:980-1003: `RpcCamera.__init__` (orthority/camera.py:420-434) keeps the RPC, and tests the
CRS if one is given; `fromRpc` is the transform of rasterio from RPC coordinates to that CRS. -/
noncomputable def rpcEnv (name stem : String → String) (fromRpc : Option (ℝ × ℝ × ℝ → Fl ℝ × Fl ℝ × Fl ℝ)) (refine : Rpc ℝ → G → Res (Rpc ℝ))
    (truthy : G → Bool) : RpcEnv M (Rpc ℝ) G (Rpc ℝ) where
  name := name
  stem := stem
  create p := match fromRpc with
    | none => .ok p.rpc
    | some w => match validateCrs w p.rpc with
      | .ok () => .ok p.rpc
      | .error e => .error e
  refine := refine
  truthy := truthy

/-- A number or NaN as a float. -/
def flOf : Pix ℝ → Fl ℝ
  | some x => .val x
  | none => .nan

/-- `RpcCamera.world_to_pixel` of one point, as `Camera.remap` calls it (orthority/camera.py:369): `toRpc` is the transform of rasterio to RPC coordinates. -/
noncomputable def rpcW2p (toRpc : Option (ℝ × ℝ × ℝ → Fl ℝ × Fl ℝ × Fl ℝ)) (r : Rpc ℝ) (x y z : Pix ℝ) : Pix ℝ × Pix ℝ :=
  match worldToPixel toRpc r [(flOf x, flOf y, flOf z)] with
  | [p] => (pixOf p.1, pixOf p.2)
  | _ => (none, none)

/-- The `rpc` command, orthority/cli.py:1021. -/
noncomputable def rpcBatch (env : RpcEnv M (Rpc ℝ) G (Rpc ℝ)) (toRpc : Option (ℝ × ℝ × ℝ → Fl ℝ × Fl ℝ × Fl ℝ))
    (sample : String → S → ℝ → ℝ → Option (Pix ℝ)) (args : Args ℝ) (outDir : String) (fault : String → Option (Fault (OrthoFile ℝ))) :
    Batch (RpcState M (Rpc ℝ) (Rpc ℝ)) (Rpc ℝ) S where
  get := env.get
  project := rpcW2p toRpc
  frame := false
  distort := false
  pinhole _ := false
  sample := sample
  args := args
  outDir := outDir
  stem := env.stem
  fault := fault

/-! ## Specification -/

/-- The RPC parameters of a file: those of its name, else those of its stem. -/
def FoundRpc (name stem : String → String) (d : Dict String (RpcParam M (Rpc ℝ))) (f : String) (p : RpcParam M (Rpc ℝ)) : Prop :=
  Dict.get? d (name f) = some p ∨ (Dict.get? d (name f) = none ∧ Dict.get? d (stem f) = some p)

/-- The camera of a file, from the parameters only. -/
def rpcSpec (env : RpcEnv M (Rpc ℝ) G (Rpc ℝ)) (d : Dict String (RpcParam M (Rpc ℝ))) (f : String) : Res (Rpc ℝ) :=
  match byName d (env.name f) (env.stem f) with
  | none => .error .paramError
  | some p => env.create p

/-- States of the factory while images are processed: the parameters `d`, and cameras made of them. -/
def RpcInv (env : RpcEnv M (Rpc ℝ) G (Rpc ℝ)) (d : Dict String (RpcParam M (Rpc ℝ))) (st : RpcState M (Rpc ℝ) (Rpc ℝ)) : Prop :=
  st.params = d ∧ ∀ f c p, Dict.get? st.cams (env.name f) = some c → byName d (env.name f) (env.stem f) = some p → env.create p = .ok c

/-! ## Theorems -/

theorem rpc_faithful (env : RpcEnv M (Rpc ℝ) G (Rpc ℝ)) (hstem : ∀ f g, env.name f = env.name g → env.stem f = env.stem g)
    (toRpc : Option (ℝ × ℝ × ℝ → Fl ℝ × Fl ℝ × Fl ℝ)) (sample : String → S → ℝ → ℝ → Option (Pix ℝ)) (args : Args ℝ) (outDir : String)
    (fault : String → Option (Fault (OrthoFile ℝ))) (d : Dict String (RpcParam M (Rpc ℝ))) :
    Faithful (rpcBatch env toRpc sample args outDir fault) (RpcInv env d) (rpcSpec env d) := by
  constructor
  · rintro ⟨params, cams⟩ f ⟨rfl, hI⟩
    simp only [rpcBatch, RpcEnv.get, rpcSpec]
    cases h1 : byName params (env.name f) (env.stem f) with
    | none => rfl
    | some p =>
      simp only
      cases h2 : Dict.get? cams (env.name f) with
      | some c => exact (hI f c p h2 h1).symm
      | none =>
        simp only
        cases h3 : env.create p <;> rfl
  · rintro ⟨params, cams⟩ f ⟨rfl, hI⟩
    simp only [rpcBatch, RpcEnv.get]
    cases h1 : byName params (env.name f) (env.stem f) with
    | none => exact ⟨rfl, hI⟩
    | some p =>
      simp only
      cases h2 : Dict.get? cams (env.name f) with
      | some c => exact ⟨rfl, hI⟩
      | none =>
        simp only
        cases h3 : env.create p with
        | error e => exact ⟨rfl, hI⟩
        | ok c =>
          refine ⟨rfl, fun g c' p' hc hp => ?_⟩
          simp only [Dict.get?_set] at hc hp
          by_cases he : env.name f = env.name g
          · rw [if_pos he] at hc
            rw [← he, ← hstem f g he, h1] at hp
            cases hc; cases hp
            exact h3
          · rw [if_neg he] at hc
            exact hI g c' p' hc hp

theorem foundRpc_iff (name stem : String → String) (d : Dict String (RpcParam M (Rpc ℝ))) (f : String) (p : RpcParam M (Rpc ℝ)) :
    byName d (name f) (stem f) = some p ↔ FoundRpc name stem d f p := by
  unfold byName FoundRpc
  cases Dict.get? d (name f) with
  | none => simp
  | some q => simp

/-- C87: `oty rpc`: when the command ends without an exception, there is an ortho of each source image in the output directory, in the CRS of the command, which
covers the camera's footprint on the DEM and no more.  Each of its pixels in the footprint, where the RPC is defined, is the source image at the pixel that
the RPC00B polynomials of the image give for the pixel's centre at its elevation in RPC coordinates, or nodata where that is outside the source image;
pixels outside the footprint are nodata.  No other file is changed. -/
theorem C87_rpc (name stem : String → String) (hstem : ∀ f g, name f = name g → stem f = stem g)
    (toRpc fromRpc : Option (ℝ × ℝ × ℝ → Fl ℝ × Fl ℝ × Fl ℝ)) (refine : Rpc ℝ → G → Res (Rpc ℝ)) (truthy : G → Bool)
    (d : Dict String (RpcParam M (Rpc ℝ))) (sample : String → S → ℝ → ℝ → Option (Pix ℝ)) (hsample : ∀ i s, sample i s (-1) (-1) = none)
    (args : Args ℝ) (hopts : OptsOk args.opts) (outDir : String) (fault : String → Option (Fault (OrthoFile ℝ)))
    (srcs : List (Source (Rpc ℝ) S)) (hinfo : ∀ s ∈ srcs, ∀ c v o m, s.make c v = .ok (o, m) → InfoOk o)
    (hd : (srcs.map fun s => outDir ++ "/" ++ (stem s.path ++ "_ORTHO.tif")).Nodup) (crs : String) (fs fs' : FS (OrthoFile ℝ))
    (h : Loop (rpcBatch (rpcEnv name stem fromRpc refine truthy) toRpc sample args outDir fault) ⟨d, []⟩ (some crs) fs srcs fs' (.ok ())) :
    (∀ q, (∀ s ∈ srcs, q ≠ outDir ++ "/" ++ (stem s.path ++ "_ORTHO.tif")) → fs' q = fs q) ∧
    ∀ s ∈ srcs, ∃ p o m f, FoundRpc name stem d s.path p ∧ s.make p.rpc crs = .ok (o, m) ∧
      fs' (outDir ++ "/" ++ (stem s.path ++ "_ORTHO.tif")) = some f ∧ f.crs = crs ∧
      ∃ res dtype nd dem h w r0 c0, Choice o args res dtype nd ∧ DemAt o.dem o.crsEqual (o.call args.demInterp res) m dem ∧
        Covers o args res dem f h w r0 c0 ∧ ProfileOk f.profile args.driver dtype o.count h w ∧
        ∀ b r c, 1 ≤ b → b ≤ o.count → r < h → c < w →
          (¬ o.InView args res dem (r0 + r) (c0 + c) → f.im.data b r c = nd) ∧
          ∀ z, dem.arr (r0 + r) (c0 + c) = some z → o.InView args res dem (r0 + r) (c0 + c) →
            let xy := f.transform.apply ((c : ℝ) + 1 / 2) ((r : ℝ) + 1 / 2)
            ∀ L P H, ((toRpc = none ∧ (L, P, H) = (xy.1, xy.2, z)) ∨ ∃ t, toRpc = some t ∧ t (xy.1, xy.2, z) = (.val L, .val P, .val H)) →
              Defined p.rpc (L, P, H) →
              f.im.data b r c = (sample args.interp (o.read dtype args.interp b)
                (ratio p.rpc p.rpc.sampNum p.rpc.sampDen L P H * p.rpc.sampScale + p.rpc.sampOff)
                (ratio p.rpc p.rpc.lineNum p.rpc.lineDen L P H * p.rpc.lineScale + p.rpc.lineOff)).getD nd := by
  set env : RpcEnv M (Rpc ℝ) G (Rpc ℝ) := rpcEnv name stem fromRpc refine truthy with henv
  have hs : Sound (rpcBatch env toRpc sample args outDir fault) srcs := by
    refine ⟨hsample, fun c x y => ?_, hinfo, hopts, Or.inl rfl⟩
    simp only [rpcBatch, rpcW2p, C29_pointwise, List.map_cons, List.map_nil]
    rw [C29_nan_warped toRpc c (flOf x) (flOf y) (flOf none) (Or.inr (Or.inr rfl))]
    rfl
  obtain ⟨k1, k2⟩ := C87_batch _ _ _ (rpc_faithful env hstem toRpc sample args outDir fault d) srcs hs hd ⟨d, []⟩
    ⟨rfl, fun f c p hc => by simp [Dict.get?_nil] at hc⟩ (some crs) fs fs' h
  refine ⟨k1, fun s hm => ?_⟩
  obtain ⟨rpc, v, o, m, f, a1, a2, a3, a4, a5, res, dtype, nd, dem, hh, w, r0, c0, b1, b2, b3, b4, -, -, -, b8⟩ := k2 s hm
  obtain rfl : crs = v := by
    rcases a2 with e | ⟨e, -⟩
    · exact Option.some.inj e
    · cases e
  have hp : ∃ p : RpcParam M (Rpc ℝ), FoundRpc name stem d s.path p ∧ p.rpc = rpc := by
    unfold rpcSpec at a1
    cases hb : byName d (env.name s.path) (env.stem s.path) with
    | none => rw [hb] at a1; cases a1
    | some p =>
      rw [hb] at a1
      refine ⟨p, (foundRpc_iff name stem d s.path p).1 hb, ?_⟩
      simp only [henv, rpcEnv] at a1
      cases hw : fromRpc with
      | none => rw [hw] at a1; exact Except.ok.inj a1
      | some t =>
        rw [hw] at a1
        cases hv : validateCrs t p.rpc with
        | error e => simp only [hv] at a1; cases a1
        | ok u => simp only [hv] at a1; exact Except.ok.inj a1
  obtain ⟨p, hp, rfl⟩ := hp
  refine ⟨p, o, m, f, hp, a3, a4, a5, res, dtype, nd, dem, hh, w, r0, c0,
    ⟨b1.resolution, b1.type, b1.nodata⟩, b2, ⟨b3.inside, b3.place, b3.all, b3.tight⟩, b4, fun b r c hb1 hb2 hr hc => ⟨fun hv => ?_, fun z hz hv => ?_⟩⟩
  · rw [b8 b r c hb1 hb2 hr hc, Obj.ground]
    exact if_neg hv
  · intro xy L P H hL hD
    rw [b8 b r c hb1 hb2 hr hc, Obj.ground]
    refine (if_pos hv).trans ?_
    rw [hz]
    have hxy : dem.t.apply (((c0 + c : ℕ) : ℝ) + 1 / 2) (((r0 + r : ℕ) : ℝ) + 1 / 2) = xy := by
      simp only [xy, b3.place]
      congr 1 <;> push_cast <;> ring
    rw [hxy]
    have ht : toRpcCrs toRpc (.val xy.1, .val xy.2, .val z) = (.val L, .val P, .val H) := by
      rcases hL with ⟨rfl, e⟩ | ⟨t, rfl, e⟩
      · cases e; rfl
      · exact e
    simp only [Obj.seen, Batch.ortho, rpcBatch, rpcW2p, C29_pointwise, List.map_cons, List.map_nil, flOf, id]
    rw [ht, C29_eval _ _ _ _ hD]
    rfl

theorem refineLoop_cams (env : RpcEnv M (Rpc ℝ) G (Rpc ℝ)) (g : Dict String G) (ks : List String) (s : RpcState M (Rpc ℝ) (Rpc ℝ)) (hs : s.cams = []) :
    (env.refineLoop g ks s).2.cams = [] := by
  induction ks generalizing s with
  | nil => exact hs
  | cons k ks ih =>
    unfold RpcEnv.refineLoop
    cases env.gcpsOf g k with
    | none => exact ih s hs
    | some gs =>
      have he : Dict.erase s.cams (env.name k) = [] := by rw [hs]; rfl
      simp only
      cases Dict.get? s.params k with
      | none => exact he
      | some p =>
        simp only
        cases env.refine p.rpc gs with
        | error e => exact he
        | ok r => exact ih _ he

/-- C87: `oty rpc --gcp-refine`: after a refinement that ends without an exception, the factory has no cameras yet, so that `C87_rpc` holds of it with the refined
parameters; these are, for each source image, its RPC refined with its GCPs, found by its name or stem, or its RPC as it was when it has no GCPs. -/
theorem C87_rpc_refined (env : RpcEnv M (Rpc ℝ) G (Rpc ℝ)) (d : Dict String (RpcParam M (Rpc ℝ))) (hk : PlainKeys env d) (g : Dict String G)
    (st : RpcState M (Rpc ℝ) (Rpc ℝ)) (h : env.refineAll ⟨d, []⟩ g = (.ok (), st)) :
    st = ⟨st.params, []⟩ ∧ ∀ f p, FoundRpc env.name env.stem st.params f p →
      ∃ k p₀, ((k = env.name f ∧ Dict.get? d k = some p₀) ∨ (k = env.stem f ∧ Dict.get? d (env.name f) = none ∧ Dict.get? d k = some p₀)) ∧
        (∀ gs, GcpsFor env g k gs → env.truthy gs = true → ∃ r, env.refine p₀.rpc gs = .ok r ∧ p = { p₀ with rpc := r }) ∧
        ((∀ gs, GcpsFor env g k gs → env.truthy gs = false) → p = p₀) := by
  have hcams : st.cams = [] := by
    have := refineLoop_cams env g (d.map Prod.fst) ⟨d, []⟩ rfl
    rw [show env.refineLoop g (d.map Prod.fst) ⟨d, []⟩ = (.ok (), st) from h] at this
    exact this
  have hkeys : st.params.map Prod.fst = d.map Prod.fst := by
    have := (refineLoop_inv env g (d.map Prod.fst) ⟨d, []⟩ ⟨hk, fun _ _ _ _ h => by simp [Dict.get?_nil] at h⟩ fun _ h => h).2
    rw [show env.refineLoop g (d.map Prod.fst) ⟨d, []⟩ = (.ok (), st) from h] at this
    exact this
  have hnone : ∀ k, Dict.get? st.params k = none ↔ Dict.get? d k = none := by
    intro k
    rw [Dict.get?_none, Dict.get?_none, hkeys]
  refine ⟨by cases st; simp only at hcams; rw [hcams], fun f p hp => ?_⟩
  have key : ∀ k p, Dict.get? st.params k = some p → ∃ p₀, Dict.get? d k = some p₀ ∧
        (∀ gs, GcpsFor env g k gs → env.truthy gs = true → ∃ r, env.refine p₀.rpc gs = .ok r ∧ p = { p₀ with rpc := r }) ∧
        ((∀ gs, GcpsFor env g k gs → env.truthy gs = false) → p = p₀) := by
    intro k p hp
    cases h0 : Dict.get? d k with
    | none => rw [(hnone k).2 h0] at hp; cases hp
    | some p₀ =>
      obtain ⟨r1, r2⟩ := C28_refine_params env ⟨d, []⟩ st hk.1 g h k p₀ h0
      refine ⟨p₀, rfl, fun gs hg ht => ?_, fun hg => ?_⟩
      · obtain ⟨r, q1, q2⟩ := r1 gs hg ht
        exact ⟨r, q1, Option.some.inj (hp.symm.trans q2)⟩
      · exact Option.some.inj (hp.symm.trans (r2 hg))
  rcases hp with hp | ⟨hn, hp⟩
  · obtain ⟨p₀, q1, q2⟩ := key _ _ hp
    exact ⟨_, p₀, Or.inl ⟨rfl, q1⟩, q2⟩
  · obtain ⟨p₀, q1, q2⟩ := key _ _ hp
    exact ⟨_, p₀, Or.inr ⟨rfl, (hnone _).1 hn, q1⟩, q2⟩

/-! ## An example -/

/-- A model with samples that grow with longitude, and lines that fall with latitude. -/
def demoRpc : Rpc ℝ where
  longOff := 104
  latOff := 197
  heightOff := 0
  longScale := 4
  latScale := 3
  heightScale := 100
  sampOff := 4
  lineOff := 2
  sampScale := 4
  lineScale := 2
  sampNum := fun i => if i = 1 then 1 else 0
  sampDen := fun i => if i = 0 then 1 else 0
  lineNum := fun i => if i = 2 then -1 else 0
  lineDen := fun i => if i = 0 then 1 else 0
  err := (none, none)

noncomputable def demoRpcEnv : RpcEnv Unit (Rpc ℝ) Unit (Rpc ℝ) := rpcEnv id demoStem none (fun r _ => .ok { r with sampOff := r.sampOff + 1 }) fun _ => true

noncomputable def demoRpcSource : Source (Rpc ℝ) (List ℝ) :=
  ⟨"a.tif", .ok (), none, fun _ _ => .ok (frameObj ⟨.pinhole, (10, 5), 0, []⟩, ⟨fun _ _ _ => some 0, 1⟩)⟩

/-- The hypotheses of `C87_rpc` are met by a command for an image whose RPC is found by its stem, after refinement. -/
example : ∃ st fs', demoRpcEnv.refineAll ⟨[("a", ⟨(), demoRpc⟩)], []⟩ [("a", ())] = (.ok (), st) ∧ PlainKeys demoRpcEnv [("a", ⟨(), demoRpc⟩)] ∧
    Loop (rpcBatch demoRpcEnv none demoSample cmdArgs "out" fun _ => none) st (some "EPSG:4979") (fun _ => none) [demoRpcSource] fs' (.ok ()) ∧
    ∃ f, fs' "out/a_ORTHO.tif" = some f ∧ f.crs = "EPSG:4979" := by
  set r : Rpc ℝ := { demoRpc with sampOff := demoRpc.sampOff + 1 } with hr
  set b := rpcBatch demoRpcEnv none demoSample cmdArgs "out" fun _ => none with hb
  have hinfo : ∀ s ∈ [demoRpcSource], ∀ c v o m, s.make c v = .ok (o, m) → InfoOk o := by
    intro s hm c v o m ho
    obtain rfl := List.mem_singleton.1 hm
    simp only [demoRpcSource, Except.ok.injEq, Prod.mk.injEq] at ho
    rw [← ho.1]
    exact ⟨demo_infoOk.height, demo_infoOk.width, demo_infoOk.block⟩
  have hs : Sound b [demoRpcSource] := by
    refine ⟨fun i s => by simp [hb, rpcBatch, demoSample], fun c x y => ?_, hinfo, ⟨by simp [hb, rpcBatch, cmdArgs, Dict.Ok], by intro k _; rfl⟩, Or.inl rfl⟩
    simp only [hb, rpcBatch, rpcW2p, C29_pointwise, List.map_cons, List.map_nil]
    rw [C29_nan_warped none c (flOf x) (flOf y) (flOf none) (Or.inr (Or.inr rfl))]
    rfl
  have hstem : ∀ f g, demoRpcEnv.name f = demoRpcEnv.name g → demoRpcEnv.stem f = demoRpcEnv.stem g := by
    intro f g h
    have : f = g := h
    rw [this]
  have hf := rpc_faithful demoRpcEnv hstem none demoSample cmdArgs "out" (fun _ => none) [("a", ⟨(), r⟩)]
  have hI : RpcInv demoRpcEnv [("a", ⟨(), r⟩)] ⟨[("a", ⟨(), r⟩)], []⟩ := ⟨rfl, fun f c p hc => by simp [Dict.get?_nil] at hc⟩
  have hd : ([demoRpcSource].map b.out).Nodup := by simp
  obtain ⟨⟨fs', h⟩, -⟩ := C87_completes b _ _ hf [demoRpcSource] hs hd (fun _ => rfl) (by decide) ⟨[("a", ⟨(), r⟩)], []⟩ hI (some "EPSG:4979") (fun _ => none) (by
    intro s hm
    obtain rfl := List.mem_singleton.1 hm
    refine ⟨r, "EPSG:4979", frameObj ⟨.pinhole, (10, 5), 0, []⟩, ⟨fun _ _ _ => some 0, 1⟩, (2, 2), "uint8", ?_, rfl, rfl, rfl, Or.inr ⟨rfl, rfl⟩,
      Or.inr ⟨Or.inl rfl, rfl⟩,
      ⟨rfl, (by decide : "cubic" ∈ ["nearest", "average", "bilinear", "cubic", "lanczos"]),
        Or.inr ⟨by norm_num [frameObj, Batch.ortho], by norm_num [frameObj, Batch.ortho]⟩, ?_,
        ⟨(by decide : "gtiff" ∈ ["gtiff", "cog"]), by decide, Or.inr (Or.inl rfl)⟩⟩,
      Or.inr rfl, by norm_num [frameObj], fun p => demo_small p⟩
    · simp [rpcSpec, byName, demoRpcEnv, rpcEnv, demoRpcSource, demoStem, Dict.get?]
    · intro d hd
      obtain rfl : d = ⟨fun _ _ => some 0, 3, 4, ⟨2, 0, 100, 0, -2, 200⟩⟩ := by
        rcases hd with ⟨-, -, -, rfl⟩ | ⟨-, rfl⟩ <;> rfl
      exact ⟨0, by decide, 0, by decide, rfl, by simp [maskArgs]⟩)
  obtain ⟨-, k⟩ := C87_batch b _ _ hf _ hs hd _ hI (some "EPSG:4979") (fun _ => none) fs' h
  refine ⟨⟨[("a", ⟨(), r⟩)], []⟩, fs', ?_, ⟨by simp [Dict.Ok], fun _ _ => rfl⟩, h, ?_⟩
  · simp [RpcEnv.refineAll, RpcEnv.refineLoop, RpcEnv.gcpsOf, byName, demoRpcEnv, rpcEnv, Dict.get?, Dict.erase, Dict.set, hr]
    rfl
  · obtain ⟨c, v, o, m, f, -, h2, -, h4, h5, -⟩ := k _ List.mem_cons_self
    rcases h2 with h2 | ⟨h2, -⟩
    · cases h2; exact ⟨f, h4, h5⟩
    · cases h2

end Verif.Command
