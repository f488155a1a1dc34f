import Verif.Cli.CommandRpc
import Verif.Files.Saved
import Verif.Factory.OsfmSees

/-!
# C121: orthos made with exported parameters
-/

set_option autoImplicit false

namespace Verif.Command

open Verif.Ortho Verif.Dem Verif.Common Verif.Files Verif.OrthoProcess Verif.Factory Verif.Cli Verif.RpcCam Verif.Create Verif.ParamIO

variable {S M G B C : Type}

/-! ## Model -/

/-- Three numbers of a file, as `np.array` takes them in `FrameCamera._get_extrinsic`, orthority/camera.py:697-715. -/
noncomputable def triple (l : List (Py ℝ)) : Option (ℝ × ℝ × ℝ) :=
  match nums l with
  | .ok [x, y, z] => some (x, y, z)
  | _ => none

/-- The exterior parameters of an image, as `FrameCameras.get` takes them from the dictionary of a reader, orthority/factory.py:205-234.  Camera IDs that are not strings
are not modelled. -/
noncomputable def extOf (e : Ext ℝ) : Option (ExtParam (ℝ × ℝ × ℝ)) :=
  some ⟨match e.camera with | .str s => some s | _ => none, triple e.xyz, triple e.opk⟩

/-- The factory of the `frame` command, orthority/cli.py:675-681, with the parameters that the readers return. -/
noncomputable def readEnv (name stem : String → String) (camKw : Dict String (Py ℝ)) (ints : Dict Key (Dict String (Py ℝ))) (exts : Dict Key (Ext ℝ)) :
    FrameEnv (Dict String (Py ℝ)) CamObj (Option Pose) (ℝ × ℝ × ℝ) :=
  frameEnv name stem camKw (strKeys ints) ((strKeys exts).map fun q => (q.1, extOf q.2))

/-- A number of an RPC dictionary, as `RPC(**rpc)` takes it, orthority/camera.py:432. -/
noncomputable def rpcNum (d : Dict Key (Py ℝ)) (k : String) : ℝ :=
  match Dict.get? d (.str k) with
  | some v => match num v with
    | .ok x => x
    | .error _ => 0
  | none => 0

/-- The coefficients of a polynomial. -/
noncomputable def rpcCoeff (d : Dict Key (Py ℝ)) (k : String) (i : Fin 20) : ℝ :=
  match Dict.get? d (.str k) with
  | some (.list l) => match nums l with
    | .ok xs => xs.getD i 0
    | .error _ => 0
  | _ => 0

/-- An error of the model, which may be `None` or missing. -/
noncomputable def rpcErr (d : Dict Key (Py ℝ)) (k : String) : Option ℝ :=
  match Dict.get? d (.str k) with
  | some v => match num v with
    | .ok x => some x
    | .error _ => none
  | none => none

/-- `RPC(**rpc)`, orthority/camera.py:432, of the `rpc` item of the parameters, and the other items. -/
noncomputable def rpcOf (p : Dict String (Py ℝ)) : RpcParam (Option (Py ℝ) × Option (Py ℝ)) (Rpc ℝ) where
  other := (Dict.get? p "cam_type", Dict.get? p "im_size")
  rpc :=
    let d : Dict Key (Py ℝ) := match Dict.get? p "rpc" with
      | some (.dict d) => d
      | _ => []
    { longOff := rpcNum d "long_off", latOff := rpcNum d "lat_off", heightOff := rpcNum d "height_off"
      longScale := rpcNum d "long_scale", latScale := rpcNum d "lat_scale", heightScale := rpcNum d "height_scale"
      sampOff := rpcNum d "samp_off", lineOff := rpcNum d "line_off", sampScale := rpcNum d "samp_scale", lineScale := rpcNum d "line_scale"
      sampNum := rpcCoeff d "samp_num_coeff", sampDen := rpcCoeff d "samp_den_coeff"
      lineNum := rpcCoeff d "line_num_coeff", lineDen := rpcCoeff d "line_den_coeff"
      err := (rpcErr d "err_bias", rpcErr d "err_rand") }

/-- The RPC parameters of a factory, orthority/factory.py:270-272. -/
noncomputable def rpcsOf (d : Dict String (Dict String (Py ℝ))) : Dict String (RpcParam (Option (Py ℝ) × Option (Py ℝ)) (Rpc ℝ)) := d.map fun q => (q.1, rpcOf q.2)

/-! ## Specification -/

/-- `RPC.to_dict()`: the names of the numbers of a model in files, docs/file_formats/oty_rpc.rst. -/
def rpcDict (r : Rpc ℝ) : Py ℝ :=
  let err : Option ℝ → Py ℝ := fun e => match e with
    | some x => .float x
    | none => .null
  strDict [("height_off", .float r.heightOff), ("height_scale", .float r.heightScale), ("lat_off", .float r.latOff), ("lat_scale", .float r.latScale),
    ("line_den_coeff", .list (List.ofFn fun i => .float (r.lineDen i))), ("line_num_coeff", .list (List.ofFn fun i => .float (r.lineNum i))),
    ("line_off", .float r.lineOff), ("line_scale", .float r.lineScale), ("long_off", .float r.longOff), ("long_scale", .float r.longScale),
    ("samp_den_coeff", .list (List.ofFn fun i => .float (r.sampDen i))), ("samp_num_coeff", .list (List.ofFn fun i => .float (r.sampNum i))),
    ("samp_off", .float r.sampOff), ("samp_scale", .float r.sampScale), ("err_bias", err r.err.1), ("err_rand", err r.err.2)]

/-- The parameters of an image with the size and the model `m`. -/
def modelParam (m : (ℕ × ℕ) × Rpc ℝ) : Dict String (Py ℝ) :=
  [("cam_type", .str "rpc"), ("im_size", .tuple [.int m.1.1, .int m.1.2]), ("rpc", rpcDict m.2)]

/-! ## Runs of the same cameras -/

/-- Two commands that differ only in their factories, which give the same cameras, do the same. -/
theorem loop_same {St St' Cm : Type} {b : Batch St Cm S} {I : St → Prop} {I' : St' → Prop} {spec spec' : String → Res Cm} (g : St' → String → Res Cm × St')
    (b' : Batch St' Cm S) (hb : b' = { b with get := g }) (hf : Faithful b I spec) (hf' : Faithful b' I' spec') {st : St} {st' : St'} (hI : I st) (hI' : I' st')
    {crs : Option String} {fs fs' : FS (OrthoFile ℝ)} {srcs : List (Source Cm S)} {r : Res Unit} (hs : ∀ s ∈ srcs, spec s.path = spec' s.path)
    (h : Loop b st crs fs srcs fs' r) : Loop b' st' crs fs srcs fs' r := by
  have ho : ∀ s, b'.out s = b.out s := fun s => by rw [hb]; rfl
  have hor : ∀ c v o, b'.ortho c v o = b.ortho c v o := fun c v o => by rw [hb]; rfl
  have ha : ∀ s, b'.argsFor s = b.argsFor s := fun s => by rw [hb]; rfl
  have hfa : b'.fault = b.fault := by rw [hb]
  induction h generalizing st' with
  | nil => exact .nil
  | @camera st crs fs s ss e h1 =>
    refine .camera ?_
    rw [hf'.get _ _ hI', ← hs s List.mem_cons_self, ← hf.get _ _ hI, h1]
  | @source st crs fs s ss c e h1 h2 =>
    refine .source (c := c) ?_ h2
    rw [hf'.get _ _ hI', ← hs s List.mem_cons_self, ← hf.get _ _ hI, h1]
  | @noCrs st crs fs s ss c h1 h2 h3 =>
    refine .noCrs (c := c) ?_ h2 h3
    rw [hf'.get _ _ hI', ← hs s List.mem_cons_self, ← hf.get _ _ hI, h1]
  | @init st crs fs s ss c v e h1 h2 h3 h4 =>
    refine .init (c := c) ?_ h2 h3 h4
    rw [hf'.get _ _ hI', ← hs s List.mem_cons_self, ← hf.get _ _ hI, h1]
  | @process st crs fs fs' s ss c v o m e h1 h2 h3 h4 h5 =>
    refine .process (c := c) ?_ h2 h3 h4 (by rw [ho, hor, ha, hfa]; exact h5)
    rw [hf'.get _ _ hI', ← hs s List.mem_cons_self, ← hf.get _ _ hI, h1]
  | @next st crs fs fs' fs'' s ss c v o m r h1 h2 h3 h4 h5 h6 ih =>
    refine .next (c := c) ?_ h2 h3 h4 (by rw [ho, hor, ha, hfa]; exact h5)
      (ih (hf.keeps _ _ hI) (hf'.keeps _ _ hI') fun t ht => hs t (List.mem_cons_of_mem _ ht))
    rw [hf'.get _ _ hI', ← hs s List.mem_cons_self, ← hf.get _ _ hI, h1]

/-! ## Equal dictionaries make the same camera -/

theorem any_congr {A : Type} {a b : Dict String A} (h : DictEq a b) (p : String → Bool) : (a.any fun q => p q.1) = b.any fun q => p q.1 := by
  have key : ∀ c d : Dict String A, DictEq c d → (c.any fun q => p q.1) = true → (d.any fun q => p q.1) = true := by
    intro c d hcd hc
    rw [List.any_eq_true] at hc ⊢
    obtain ⟨q, hq, hp⟩ := hc
    cases hg : Dict.get? d q.1 with
    | none =>
      rw [← hcd, Dict.get?_none] at hg
      exact absurd (List.mem_map_of_mem hq) hg
    | some v => exact ⟨_, Dict.mem_of_get? hg, hp⟩
  rw [Bool.eq_iff_iff]
  exact ⟨key a b h, key b a fun k => (h k).symm⟩

theorem construct_congr {a b : Dict String (Py ℝ)} (h : DictEq a b) (t : FrameType) : construct t a = construct t b := by
  have hz : ∀ n, zeroOr a n = zeroOr b n := fun n => by unfold zeroOr; rw [h n]
  have hd : distParam t a = distParam t b := by
    unfold distParam
    simp only [hz]
  unfold construct
  rw [any_congr h fun k => decide (k ∉ ctorParams t), h "im_size", h "focal_len", h "sensor_size", hz, hz, hd]

theorem createCamera_congr {a b : Dict String (Py ℝ)} (h : DictEq a b) (kw : Dict String (Py ℝ)) : createCamera a kw = createCamera b kw := by
  have happ : DictEq (a ++ kw) (b ++ kw) := fun k => by rw [get?_append, get?_append, h k]
  have her : DictEq (Dict.erase (a ++ kw) "cam_type") (Dict.erase (b ++ kw) "cam_type") := fun k => by rw [Dict.get?_erase, Dict.get?_erase, happ k]
  unfold createCamera
  rw [any_congr h fun k => Dict.has kw k]
  simp only [happ "cam_type", construct_congr her]

/-! ## Parameters read from exported files -/

theorem get?_same {d : Dict String (Dict String (Py ℝ))} {d' : Dict Key (Dict String (Py ℝ))} (h : SameDicts d d') (k : String) :
    (Dict.get? d k = none ∧ Dict.get? (strKeys d') k = none) ∨ ∃ p p', Dict.get? d k = some p ∧ Dict.get? (strKeys d') k = some p' ∧ DictEq p p' := by
  rw [Verif.Create.get?_strKeys]
  induction h with
  | nil => exact Or.inl ⟨rfl, rfl⟩
  | @cons a b l l' hab _ ih =>
    rw [Dict.get?_cons, Dict.get?_cons, hab.1]
    by_cases he : a.1 = k
    · rw [if_pos he, if_pos (by rw [he])]
      exact Or.inr ⟨_, _, rfl, rfl, hab.2⟩
    · rw [if_neg he, if_neg (by intro hh; exact he (Key.str.inj hh))]
      exact ih

theorem strKeys_map {A : Type} (d : Dict String A) : strKeys (d.map fun p => (Key.str p.1, p.2)) = d := by
  induction d with
  | nil => rfl
  | cons p d ih =>
    have : strKeys ((p :: d).map fun p => (Key.str p.1, p.2)) = (p.1, p.2) :: strKeys (d.map fun p => (Key.str p.1, p.2)) := rfl
    rw [this, ih]

theorem single_same {d : Dict String (Dict String (Py ℝ))} {d' : Dict Key (Dict String (Py ℝ))} (h : SameDicts d d') :
    (∃ k p p', d = [(k, p)] ∧ strKeys d' = [(k, p')] ∧ DictEq p p') ∨ ((∀ q, d ≠ [q]) ∧ ∀ q, strKeys d' ≠ [q]) := by
  have hlen : (strKeys d').length = d.length := by
    induction h with
    | nil => rfl
    | @cons a b l l' hab _ ih =>
      obtain ⟨bk, bv⟩ := b
      obtain rfl : bk = _ := hab.1
      have : strKeys ((Key.str a.1, bv) :: l') = (a.1, bv) :: strKeys l' := rfl
      rw [this, List.length_cons, List.length_cons, ih]
  cases h with
  | nil => exact Or.inr ⟨fun q hq => absurd hq (by simp), fun q hq => absurd hq (by simp [strKeys])⟩
  | @cons a b l l' hab ht =>
    cases ht with
    | nil =>
      obtain ⟨ak, av⟩ := a
      obtain ⟨bk, bv⟩ := b
      obtain rfl : bk = _ := hab.1
      exact Or.inl ⟨ak, av, bv, rfl, rfl, hab.2⟩
    | cons =>
      refine Or.inr ⟨fun q hq => absurd hq (by simp), fun q hq => ?_⟩
      rw [hq] at hlen
      simp at hlen

theorem int_same (name stem : String → String) (camKw : Dict String (Py ℝ)) (ext ext' : Dict String (Option (ExtParam (ℝ × ℝ × ℝ))))
    {ints : Dict String (Dict String (Py ℝ))} {ints' : Dict Key (Dict String (Py ℝ))} (h : SameDicts ints ints') (id : Option String) :
    (∃ e, (frameEnv name stem camKw ints ext).int id = .error e ∧ (frameEnv name stem camKw (strKeys ints') ext').int id = .error e) ∨
    ∃ p p', (frameEnv name stem camKw ints ext).int id = .ok p ∧ (frameEnv name stem camKw (strKeys ints') ext').int id = .ok p' ∧ DictEq p p' := by
  have hsome : ∀ s : String, s ≠ "" → id = some s → (∃ e, (frameEnv name stem camKw ints ext).int id = .error e ∧
        (frameEnv name stem camKw (strKeys ints') ext').int id = .error e) ∨
      ∃ p p', (frameEnv name stem camKw ints ext).int id = .ok p ∧ (frameEnv name stem camKw (strKeys ints') ext').int id = .ok p' ∧ DictEq p p' := by
    rintro s hs rfl
    simp only [FrameEnv.int, if_pos hs, frameEnv]
    rcases get?_same h s with ⟨h1, h2⟩ | ⟨p, p', h1, h2, h3⟩
    · rw [h1, h2]
      exact Or.inl ⟨_, rfl, rfl⟩
    · rw [h1, h2]
      exact Or.inr ⟨p, p', rfl, rfl, h3⟩
  have hnone : id = none ∨ id = some "" → (∃ e, (frameEnv name stem camKw ints ext).int id = .error e ∧
        (frameEnv name stem camKw (strKeys ints') ext').int id = .error e) ∨
      ∃ p p', (frameEnv name stem camKw ints ext).int id = .ok p ∧ (frameEnv name stem camKw (strKeys ints') ext').int id = .ok p' ∧ DictEq p p' := by
    intro hid
    rcases single_same h with ⟨k, p, p', h1, h2, h3⟩ | ⟨h1, h2⟩
    · right
      refine ⟨p, p', ?_, ?_, h3⟩
      · rcases hid with rfl | rfl <;> · rw [h1]; rfl
      · rcases hid with rfl | rfl <;> · rw [h2]; rfl
    · left
      have key : ∀ (d : Dict String (Dict String (Py ℝ))) (x : Dict String (Option (ExtParam (ℝ × ℝ × ℝ)))), (∀ q, d ≠ [q]) →
          (frameEnv name stem camKw d x).int id = .error .paramError := by
        intro d x hd
        rcases d with _ | ⟨a, _ | ⟨b, l⟩⟩
        · rcases hid with rfl | rfl <;> rfl
        · exact absurd rfl (hd a)
        · rcases hid with rfl | rfl <;> rfl
      exact ⟨_, key _ _ h1, key _ _ h2⟩
  rcases id with _ | s
  · exact hnone (Or.inl rfl)
  · by_cases hs : s = ""
    · exact hnone (Or.inr (by rw [hs]))
    · exact hsome s hs rfl

theorem frameSpec_same (name stem : String → String) (camKw : Dict String (Py ℝ)) (ext : Dict String (Option (ExtParam (ℝ × ℝ × ℝ))))
    {ints : Dict String (Dict String (Py ℝ))} {ints' : Dict Key (Dict String (Py ℝ))} (h : SameDicts ints ints') (f : String) :
    frameSpec (frameEnv name stem camKw ints ext) f = frameSpec (frameEnv name stem camKw (strKeys ints') ext) f := by
  have hext : (frameEnv name stem camKw ints ext).ext f = (frameEnv name stem camKw (strKeys ints') ext).ext f := rfl
  have hcr : ∀ p p', DictEq p p' → (frameEnv name stem camKw ints ext).create p = (frameEnv name stem camKw (strKeys ints') ext).create p' := by
    intro p p' hp
    simp only [frameEnv, createCamera_congr hp]
  have hpose : ∀ e, (frameEnv name stem camKw ints ext).newPose e = (frameEnv name stem camKw (strKeys ints') ext).newPose e := fun _ => rfl
  have : (frameEnv name stem camKw ints ext).spec f = (frameEnv name stem camKw (strKeys ints') ext).spec f := by
    unfold FrameEnv.spec
    rw [hext]
    cases (frameEnv name stem camKw (strKeys ints') ext).ext f with
    | error e => rfl
    | ok e =>
      rw [Res.ok_bind, Res.ok_bind]
      rcases int_same name stem camKw ext ext h e.camera with ⟨e', h1, h2⟩ | ⟨p, p', h1, h2, h3⟩
      · rw [h1, h2]; rfl
      · rw [h1, h2, Res.ok_bind, Res.ok_bind, hcr p p' h3]
        rfl
  unfold frameSpec
  rw [this]

/-! ## Theorems -/

/-- C121, the part that holds: after `FrameCameras.write_param` has saved the parameters of a command, and any later calls that do not overwrite files, the files can be read, with the CRS
of the command; and `oty frame` with them, for any source images, DEM and options, does what the original command does with the same source images, DEM, options and files: it
makes the same orthos, and ends in the same way.  Missing: see `C20_fails`. -/
theorem C121_frame_partial (cd : Codec ℝ B) (hcd : ∀ v, cd.load (cd.dump v) = some v) (lib : CrsLib C)
    (lla : C → List (Py ℝ) → List (Py ℝ)) (lower : String → String) (ps ps' : FS B) (dir : String)
    (ints : Dict String (Dict String (Py ℝ))) (exts : Dict String (Ext ℝ)) (crs : C) (overwrite : Bool) (f1 f2 : Option (Fault B))
    (hsave : frameWriteParam cd lib lla ps dir ints exts (some crs) overwrite f1 f2 = (ps', .ok ()))
    (hi : Dict.Ok ints) (hine : ints ≠ []) (hcam : "camera" ∉ ints.map Prod.fst) (hiw : ∀ p ∈ ints, ∃ t, IntWF lower p.2 t)
    (hparse : lib.parse (lib.toString crs) = some crs) (hlla : ∀ l, ∃ x ls, lla crs l = x :: ls ∧ IsNum x ∧ ∀ y ∈ ls, IsNum y)
    (he : Dict.Ok exts) (hew : ∀ p ∈ exts, p.2.WF) (hene : exts ≠ []) (ops : List (Op ℝ C B)) (hops : ∀ op ∈ ops, op.Named) :
    ∃ ints' exts', (readFile cd (runAll cd lib lla false ps' ops) (dir ++ "/int_param.yaml") >>= readOtyInt lower) = .ok ints' ∧
      (readFile cd (runAll cd lib lla false ps' ops) (dir ++ "/ext_param.geojson") >>= readOtyExt lib) = .ok (crs, exts') ∧
      ∀ (name stem : String → String) (camKw : Dict String (Py ℝ)) (sample : String → S → ℝ → ℝ → Option (Pix ℝ)) (args : Args ℝ) (outDir : String)
        (fault : String → Option (Fault (OrthoFile ℝ))) (srcs : List (Source (CamObj × Pose) S)) (v : Option String) (fs fs' : FS (OrthoFile ℝ)) (r : Res Unit),
        Loop (frameBatch (readEnv name stem camKw ints' exts') sample args outDir fault) .init v fs srcs fs' r ↔
        Loop (frameBatch (frameEnv name stem camKw ints (exts.map fun q => (q.1, extOf q.2))) sample args outDir fault) .init v fs srcs fs' r := by
  obtain ⟨ints', h1, h2, h3⟩ := C68_frame_partial cd hcd lib lla lower ps ps' dir ints exts crs overwrite f1 f2 hsave hi hine hcam hiw hparse hlla he hew hene ops hops
  refine ⟨ints', _, h2, h3, fun name stem camKw sample args outDir fault srcs v fs fs' r => ?_⟩
  unfold readEnv
  rw [strKeys_map]
  have hs := frameSpec_same name stem camKw (exts.map fun q => (q.1, extOf q.2)) h1
  have ha := frame_faithful (frameEnv name stem camKw ints (exts.map fun q => (q.1, extOf q.2))) sample args outDir fault
  have hb := frame_faithful (frameEnv name stem camKw (strKeys ints') (exts.map fun q => (q.1, extOf q.2))) sample args outDir fault
  exact ⟨loop_same _ _ rfl hb ha (Inv.init _) (Inv.init _) fun s _ => (hs s.path).symm, loop_same _ _ rfl ha hb (Inv.init _) (Inv.init _) fun s _ => hs s.path⟩

theorem rpcOf_congr {a b : Dict String (Py ℝ)} (h : DictEq a b) : rpcOf a = rpcOf b := by
  unfold rpcOf
  rw [h "cam_type", h "im_size", h "rpc"]

theorem rpcsOf_same {d : Dict String (Dict String (Py ℝ))} {d' : Dict Key (Dict String (Py ℝ))} (h : SameDicts d d') : rpcsOf (strKeys d') = rpcsOf d := by
  unfold rpcsOf
  induction h with
  | nil => rfl
  | @cons a b l l' hab _ ih =>
    obtain ⟨bk, bv⟩ := b
    obtain rfl : bk = _ := hab.1
    have : strKeys ((Key.str a.1, bv) :: l') = (a.1, bv) :: strKeys l' := rfl
    rw [this, List.map_cons, List.map_cons, ih, rpcOf_congr hab.2]

/-- C121: after `RpcCameras.write_param` has saved the parameters `rpcs` of a command, refined or not, and any later calls that do not overwrite files, the file can be read; and `oty rpc`
with it, without refinement, for any source images, DEM and options, does what the original command does with the same source images, DEM, options and files. -/
theorem C121_rpc (cd : Codec ℝ B) (hcd : ∀ v, cd.load (cd.dump v) = some v) (lib : CrsLib C) (lla : C → List (Py ℝ) → List (Py ℝ)) (ps ps' : FS B) (dir : String)
    (name stem : String → String) (fromRpc toRpc : Option (ℝ × ℝ × ℝ → Fl ℝ × Fl ℝ × Fl ℝ)) (refine : Rpc ℝ → G → Res (Rpc ℝ)) (truthy : G → Bool)
    (d : Dict String (RpcParam (Option (Py ℝ) × Option (Py ℝ)) (Rpc ℝ))) (g : Dict String G)
    (st : RpcState (Option (Py ℝ) × Option (Py ℝ)) (Rpc ℝ) (Rpc ℝ))
    (hst : st = ⟨d, []⟩ ∨ (rpcEnv name stem fromRpc refine truthy).refineAll ⟨d, []⟩ g = (.ok (), st))
    (rpcs : Dict String (Dict String (Py ℝ))) (hd : st.params = rpcsOf rpcs)
    (gcps : Option (Dict String (List (ParamIO.Gcp ℝ)))) (overwrite : Bool) (f1 f2 : Option (Fault B))
    (hsave : rpcWriteParam cd ps dir rpcs gcps overwrite f1 f2 = (ps', .ok ())) (hr : Dict.Ok rpcs) (hrw : ∀ p ∈ rpcs, RpcWF p.2)
    (ops : List (Op ℝ C B)) (hops : ∀ op ∈ ops, op.Named) :
    ∃ rpcs', (readFile cd (runAll cd lib lla false ps' ops) (dir ++ "/rpc_param.yaml") >>= readOtyRpc) = .ok rpcs' ∧
      ∀ (sample : String → S → ℝ → ℝ → Option (Pix ℝ)) (args : Args ℝ) (outDir : String) (fault : String → Option (Fault (OrthoFile ℝ)))
        (srcs : List (Source (Rpc ℝ) S)) (v : Option String) (fs fs' : FS (OrthoFile ℝ)) (r : Res Unit),
        Loop (rpcBatch (rpcEnv name stem fromRpc refine truthy) toRpc sample args outDir fault) ⟨rpcsOf (strKeys rpcs'), []⟩ v fs srcs fs' r ↔
        Loop (rpcBatch (rpcEnv name stem fromRpc refine truthy) toRpc sample args outDir fault) st v fs srcs fs' r := by
  obtain ⟨h1, -, -, -⟩ := rpc_success cd ps ps' dir rpcs gcps overwrite f1 f2 hsave
  obtain ⟨r, h3, h4⟩ := C22_rpc_round_trip rpcs hr hrw
  refine ⟨r, ?_, fun sample args outDir fault srcs v fs fs' res => ?_⟩
  · rw [show dir ++ "/rpc_param.yaml" = rpcFile dir from rfl, readFile_keeps cd hcd (later cd lib lla ps' ops hops) h1, Res.ok_bind, h3]
  · have hc : st.cams = [] := by
      rcases hst with rfl | h
      · rfl
      · have := refineLoop_cams (rpcEnv name stem fromRpc refine truthy) g (d.map Prod.fst) ⟨d, []⟩ rfl
        rw [show st = ((rpcEnv name stem fromRpc refine truthy).refineAll ⟨d, []⟩ g).2 by rw [h]]
        exact this
    obtain ⟨p, c⟩ := st
    simp only at hd hc
    rw [rpcsOf_same h4, ← hd, hc]

theorem nums_floats (l : List ℝ) : nums (l.map Py.float) = .ok l := by
  induction l with
  | nil => rfl
  | cons x l ih =>
    rw [List.map_cons]
    unfold nums
    rw [ih]
    rfl

theorem coeff_ofFn (d : Dict Key (Py ℝ)) (k : String) (f : Fin 20 → ℝ) (h : Dict.get? d (.str k) = some (.list (List.ofFn fun i => .float (f i)))) : rpcCoeff d k = f := by
  funext i
  unfold rpcCoeff
  rw [h]
  have : (List.ofFn fun i => (Py.float (f i) : Py ℝ)) = (List.ofFn f).map Py.float := by
    rw [List.map_ofFn]
    rfl
  simp only [this, nums_floats]
  rw [List.getD_eq_getElem?_getD, List.getElem?_ofFn, dif_pos i.2]
  rfl

/-- C121: the model that a camera is made with is the one in the parameters: each number is that of its name. -/
theorem C121_model (m : (ℕ × ℕ) × Rpc ℝ) : (rpcOf (modelParam m)).rpc = m.2 := by
  obtain ⟨z, r⟩ := m
  have hn : ∀ (d : Dict Key (Py ℝ)) (k : String) (x : ℝ), Dict.get? d (.str k) = some (.float x) → rpcNum d k = x := by
    intro d k x h
    unfold rpcNum
    rw [h]
    rfl
  have he : ∀ (d : Dict Key (Py ℝ)) (k : String) (e : Option ℝ), Dict.get? d (.str k) = some (match e with | some x => .float x | none => .null) → rpcErr d k = e := by
    intro d k e h
    unfold rpcErr
    rw [h]
    cases e <;> rfl
  obtain ⟨d, hd⟩ : ∃ d, rpcDict r = .dict d := ⟨_, rfl⟩
  have hg : ∀ k v, Py.getItem (rpcDict r) k = .ok v → Dict.get? d (.str k) = some v := by
    intro k v h
    rw [hd] at h
    simp only [Py.getItem] at h
    split at h
    · cases h; assumption
    · cases h
  have h1 : Dict.get? (modelParam (z, r)) "rpc" = some (.dict d) := by rw [← hd]; rfl
  simp only [rpcOf, h1]
  rw [hn d "long_off" r.longOff (hg _ _ rfl), hn d "lat_off" r.latOff (hg _ _ rfl), hn d "height_off" r.heightOff (hg _ _ rfl),
    hn d "long_scale" r.longScale (hg _ _ rfl), hn d "lat_scale" r.latScale (hg _ _ rfl), hn d "height_scale" r.heightScale (hg _ _ rfl),
    hn d "samp_off" r.sampOff (hg _ _ rfl), hn d "line_off" r.lineOff (hg _ _ rfl), hn d "samp_scale" r.sampScale (hg _ _ rfl),
    hn d "line_scale" r.lineScale (hg _ _ rfl), coeff_ofFn d "samp_num_coeff" r.sampNum (hg _ _ rfl), coeff_ofFn d "samp_den_coeff" r.sampDen (hg _ _ rfl),
    coeff_ofFn d "line_num_coeff" r.lineNum (hg _ _ rfl), coeff_ofFn d "line_den_coeff" r.lineDen (hg _ _ rfl), he d "err_bias" r.err.1 (hg _ _ rfl),
    he d "err_rand" r.err.2 (hg _ _ rfl)]

theorem modelParam_wf (m : (ℕ × ℕ) × Rpc ℝ) : RpcWF (modelParam m) where
  ok := by simp [Dict.Ok, modelParam]
  cam_type := rfl
  im_size := ⟨_, _, rfl, Or.inl rfl, Or.inl rfl⟩
  rpc := ⟨_, rfl, (validate_iff _ (by
    simp [rpcCoeffSchema, numTys, Schema.Ok, Fields.Ok, Schemas.Ok, Fields.ofList, Schemas.ofList, List.replicate]) _).1 rfl⟩
  keys := by simp [modelParam]

/-- C121 for RPC models: when the factory of a command has the models and image sizes `ms`, refined or not, and they are saved, `oty rpc` with the file does what the original command
does. -/
theorem C121_models (cd : Codec ℝ B) (hcd : ∀ v, cd.load (cd.dump v) = some v) (lib : CrsLib C) (lla : C → List (Py ℝ) → List (Py ℝ)) (ps ps' : FS B) (dir : String)
    (name stem : String → String) (fromRpc toRpc : Option (ℝ × ℝ × ℝ → Fl ℝ × Fl ℝ × Fl ℝ)) (refine : Rpc ℝ → G → Res (Rpc ℝ)) (truthy : G → Bool)
    (d : Dict String (RpcParam (Option (Py ℝ) × Option (Py ℝ)) (Rpc ℝ))) (g : Dict String G)
    (st : RpcState (Option (Py ℝ) × Option (Py ℝ)) (Rpc ℝ) (Rpc ℝ))
    (hst : st = ⟨d, []⟩ ∨ (rpcEnv name stem fromRpc refine truthy).refineAll ⟨d, []⟩ g = (.ok (), st))
    (ms : Dict String ((ℕ × ℕ) × Rpc ℝ)) (hms : Dict.Ok ms)
    (hd : st.params = ms.map fun q => (q.1, ⟨(some (.str "rpc"), some (.tuple [.int q.2.1.1, .int q.2.1.2])), q.2.2⟩))
    (gcps : Option (Dict String (List (ParamIO.Gcp ℝ)))) (overwrite : Bool) (f1 f2 : Option (Fault B))
    (hsave : rpcWriteParam cd ps dir (ms.map fun q => (q.1, modelParam q.2)) gcps overwrite f1 f2 = (ps', .ok ()))
    (ops : List (Op ℝ C B)) (hops : ∀ op ∈ ops, op.Named) :
    ∃ rpcs', (readFile cd (runAll cd lib lla false ps' ops) (dir ++ "/rpc_param.yaml") >>= readOtyRpc) = .ok rpcs' ∧
      ∀ (sample : String → S → ℝ → ℝ → Option (Pix ℝ)) (args : Args ℝ) (outDir : String) (fault : String → Option (Fault (OrthoFile ℝ)))
        (srcs : List (Source (Rpc ℝ) S)) (v : Option String) (fs fs' : FS (OrthoFile ℝ)) (r : Res Unit),
        Loop (rpcBatch (rpcEnv name stem fromRpc refine truthy) toRpc sample args outDir fault) ⟨rpcsOf (strKeys rpcs'), []⟩ v fs srcs fs' r ↔
        Loop (rpcBatch (rpcEnv name stem fromRpc refine truthy) toRpc sample args outDir fault) st v fs srcs fs' r := by
  refine C121_rpc cd hcd lib lla ps ps' dir name stem fromRpc toRpc refine truthy d g st hst (ms.map fun q => (q.1, modelParam q.2)) ?_ gcps overwrite f1 f2 hsave ?_ ?_ ops hops
  · rw [hd]
    simp only [rpcsOf, List.map_map]
    refine List.map_congr_left fun q _ => ?_
    have : rpcOf (modelParam q.2) = ⟨(some (.str "rpc"), some (.tuple [.int q.2.1.1, .int q.2.1.2])), (rpcOf (modelParam q.2)).rpc⟩ := rfl
    rw [Function.comp_apply, this, C121_model]
  · unfold Dict.Ok at hms ⊢
    rwa [List.map_map]
  · intro p hp
    obtain ⟨q, -, rfl⟩ := List.mem_map.1 hp
    exact modelParam_wf q.2

/-- A frame camera with the parameters of `demoCam`. -/
theorem demoCam_params (x : ℝ) : Params (ParamIO.demoCam x) ⟨.pinhole, 30, 20, .inl x, none, fun _ => none⟩ := by
  refine ⟨rfl, rfl, ⟨.float x, Or.inl rfl, rfl⟩, rfl, ?_, ?_⟩
  · intro n hn
    have : n = "cx" ∨ n = "cy" := by simpa [coefficients] using hn
    rcases this with rfl | rfl <;> exact rfl
  · intro n hn
    simp only [ParamIO.demoCam, List.map_cons, List.map_nil, List.mem_cons, List.not_mem_nil, or_false] at hn
    rcases hn with rfl | rfl | rfl <;> simp

/-- Where C121 fails: with a camera whose ID is `camera`, the exported files can be read, but have one camera, with another ID: `oty frame` with them stops with an error at
an image of the other camera, for which the original command has a camera. -/
theorem C121_camera_fails (cd : Codec ℝ B) (hcd : ∀ v, cd.load (cd.dump v) = some v) (lib : CrsLib C)
    (lla : C → List (Py ℝ) → List (Py ℝ)) (ps ps' : FS B) (dir : String) (exts : Dict String (Ext ℝ)) (crs : C) (overwrite : Bool) (f1 f2 : Option (Fault B))
    (hsave : frameWriteParam cd lib lla ps dir [("a", ParamIO.demoCam 1), ("camera", ParamIO.demoCam 1)] exts (some crs) overwrite f1 f2 = (ps', .ok ()))
    (name stem : String → String) (f : String) (e : Ext ℝ) (hext : Dict.get? exts (name f) = some e) (hcam : e.camera = .str "a")
    (x o : ℝ × ℝ × ℝ) (hx : triple e.xyz = some x) (ho : triple e.opk = some o) :
    ∃ ints', (readFile cd ps' (dir ++ "/int_param.yaml") >>= readOtyInt id) = .ok ints' ∧
      (∃ c, frameSpec (frameEnv name stem [] [("a", ParamIO.demoCam 1), ("camera", ParamIO.demoCam 1)] (exts.map fun q => (q.1, extOf q.2))) f = .ok c) ∧
      ∀ (sample : String → S → ℝ → ℝ → Option (Pix ℝ)) (args : Args ℝ) (outDir : String)
        (fault : String → Option (Fault (OrthoFile ℝ))) (s : Source (CamObj × Pose) S) (ss : List (Source (CamObj × Pose) S)) (v : Option String)
        (fs fs' : FS (OrthoFile ℝ)) (r : Res Unit), s.path = f →
        Loop (frameBatch (readEnv name stem [] ints' (exts.map fun p => (.str p.1, p.2))) sample args outDir fault) .init v fs (s :: ss) fs' r →
        fs' = fs ∧ r = .error .clickException := by
  obtain ⟨-, v, -, -, h1, -, -⟩ := C15_success cd lib lla ps ps' dir _ exts (some crs) overwrite f1 f2 hsave
  refine ⟨[(.str "unknown", ParamIO.demoCam 1)], ?_, ?_, ?_⟩
  · have hr : readFile cd ps' (dir ++ "/int_param.yaml") = .ok (writeInt [("a", ParamIO.demoCam 1), ("camera", ParamIO.demoCam 1)]) := by
      unfold readFile
      rw [show dir ++ "/int_param.yaml" = intFile dir from rfl, h1]
      simp only [hcd]
    rw [hr, Res.ok_bind, (C20_fails (1 : ℝ)).1]
  · obtain ⟨c, hc, -⟩ := C81_camera (ParamIO.demoCam 1) [] _ (demoCam_params 1) (fun _ h => absurd h List.not_mem_nil) (by simp [CamFile.focalPx])
    have hm : Dict.get? (exts.map fun q => (q.1, extOf q.2)) (name f) = some (extOf e) := by
      rw [Dict.get?_map, hext]
      rfl
    have e1 : (frameEnv name stem [] [("a", ParamIO.demoCam 1), ("camera", ParamIO.demoCam 1)] (exts.map fun q => (q.1, extOf q.2))).ext f = .ok ⟨some "a", some x, some o⟩ := by
      simp only [FrameEnv.ext, byName, frameEnv, hm]
      simp only [extOf, hcam, hx, ho]
    refine ⟨(c, (![x.1, x.2.1, x.2.2], o)), ?_⟩
    unfold frameSpec FrameEnv.spec
    rw [e1, Res.ok_bind]
    simp only [frameEnv, FrameEnv.int, FrameEnv.newPose]
    rw [if_pos (by decide), show Dict.get? [("a", ParamIO.demoCam (1 : ℝ)), ("camera", ParamIO.demoCam 1)] "a" = some (ParamIO.demoCam 1) from rfl]
    simp only [Res.ok_bind, hc]
    rfl
  · intro sample args outDir fault s ss v fs fs' r hs h
    have hf := frame_faithful (readEnv name stem [] [(.str "unknown", ParamIO.demoCam 1)] (exts.map fun p => (.str p.1, p.2))) sample args outDir fault
    have hsp : frameSpec (readEnv name stem [] [(.str "unknown", ParamIO.demoCam 1)] (exts.map fun p => (.str p.1, p.2))) s.path = .error .paramError := by
      have hm : Dict.get? (exts.map fun q => (q.1, extOf q.2)) (name f) = some (extOf e) := by
        rw [Dict.get?_map, hext]
        rfl
      have e1 : (readEnv name stem [] [(.str "unknown", ParamIO.demoCam 1)] (exts.map fun p => (.str p.1, p.2))).ext f = .ok ⟨some "a", some x, some o⟩ := by
        unfold readEnv
        rw [strKeys_map]
        simp only [FrameEnv.ext, byName, frameEnv, hm]
        simp only [extOf, hcam, hx, ho]
      unfold frameSpec FrameEnv.spec
      rw [hs, e1, Res.ok_bind]
      rfl
    have hg := (hf.get .init s.path (Inv.init _)).trans hsp
    cases h with
    | camera h1 => rw [hg] at h1; cases h1; exact ⟨rfl, rfl⟩
    | source h1 => rw [hg] at h1; cases h1
    | noCrs h1 => rw [hg] at h1; cases h1
    | init h1 => rw [hg] at h1; cases h1
    | process h1 => rw [hg] at h1; cases h1
    | next h1 => rw [hg] at h1; cases h1

/-! ## An example -/

/-- Values kept as they are. -/
def plainCodec : Codec ℝ (Py ℝ) := ⟨id, some⟩

def demoLib : CrsLib Bool := ⟨fun _ => some true, fun _ => "EPSG:32735", fun b => b⟩

noncomputable def demoExts : Dict String (Ext ℝ) := [("a.tif", ⟨[.float 104, .float 197, .float 50], [.float 0, .float 0, .int 0], .str "a"⟩)]

theorem demo_triples : triple [.float 104, .float 197, .float 50] = some (104, 197, 50) ∧ triple [.float 0, .float 0, .int 0] = some (0, 0, 0) := by
  constructor <;>
  · simp [triple, nums, num]
    rfl

/-- The parameters of two cameras and an image are saved: the hypotheses of `C121_frame_partial` are met, and a run with the files makes the camera of the image. -/
example : ∃ ps', frameWriteParam plainCodec demoLib (fun _ _ => [.float 1, .float 2]) (fun _ => none) "d" [("a", ParamIO.demoCam 1), ("b", ParamIO.demoCam 2)] demoExts (some true) false
      none none = (ps', .ok ()) ∧
    ∃ ints' exts', (readFile plainCodec ps' ("d" ++ "/int_param.yaml") >>= readOtyInt id) = .ok ints' ∧
      (readFile plainCodec ps' ("d" ++ "/ext_param.geojson") >>= readOtyExt demoLib) = .ok (true, exts') := by
  have hw : ∀ x : ℝ, ∃ t, IntWF id (ParamIO.demoCam x) t := fun x => ⟨.pinhole, {
    ok := by simp [Dict.Ok, ParamIO.demoCam]
    cam_type := rfl
    lower := rfl
    im_size := ⟨_, rfl⟩
    focal_len := ⟨_, rfl, by intro l h; cases h⟩
    sensor_size := .inl rfl
    rest := by
      intro k v h hn
      simp only [ParamIO.demoCam, List.mem_cons, Prod.mk.injEq, List.not_mem_nil, or_false] at h
      rcases h with ⟨rfl, -⟩ | ⟨rfl, -⟩ | ⟨rfl, -⟩ <;> simp at hn }⟩
  refine ⟨_, rfl, ?_⟩
  obtain ⟨ints', exts', h1, h2, -⟩ := C121_frame_partial (S := ℝ) plainCodec (fun _ => rfl) demoLib (fun _ _ => [.float 1, .float 2]) id (fun _ => none) _ "d"
    [("a", ParamIO.demoCam 1), ("b", ParamIO.demoCam 2)] demoExts true false none none rfl (by simp [Dict.Ok]) (by simp) (by simp)
    (by
      intro p hp
      simp only [List.mem_cons, List.not_mem_nil, or_false] at hp
      rcases hp with rfl | rfl
      · exact hw 1
      · exact hw 2) rfl (fun l => ⟨.float 1, [.float 2], rfl, .inr rfl, by intro y hy; obtain rfl := List.mem_singleton.1 hy; exact .inr rfl⟩)
    (by simp [Dict.Ok, demoExts]) (by
      intro p hp
      obtain rfl := List.mem_singleton.1 hp
      exact ⟨⟨_, _, _, rfl, .inr rfl, .inr rfl, .inr rfl⟩, ⟨_, _, _, rfl, .inr rfl, .inr rfl, .inl rfl⟩, rfl⟩) (by simp [demoExts]) [] (fun _ h => absurd h List.not_mem_nil)
  exact ⟨ints', exts', h1, h2⟩

/-- The hypotheses of `C121_camera_fails` are met. -/
example : ∃ ps', frameWriteParam plainCodec demoLib (fun _ _ => [.float 1, .float 2]) (fun _ => none) "d" [("a", ParamIO.demoCam 1), ("camera", ParamIO.demoCam 1)] demoExts (some true) false
      none none = (ps', .ok ()) ∧ ∃ ints', (readFile plainCodec ps' ("d" ++ "/int_param.yaml") >>= readOtyInt id) = .ok ints' := by
  refine ⟨_, rfl, ?_⟩
  obtain ⟨ints', h, -⟩ := C121_camera_fails (S := ℝ) plainCodec (fun _ => rfl) demoLib (fun _ _ => [.float 1, .float 2]) (fun _ => none) _ "d" demoExts true false none none rfl
    id demoStem "a.tif" _ rfl rfl _ _ demo_triples.1 demo_triples.2
  exact ⟨ints', h⟩

/-- RPC parameters of an image. -/
noncomputable def demoRpcs (lat : ℝ) : Dict String (Dict String (Py ℝ)) :=
  [("a", [("cam_type", .str "rpc"), ("im_size", .tuple [.int 3, .int 4]), ("rpc", ParamIO.demoRpc (5 : ℝ) (.float lat))])]

/-- A refined RPC is saved: the hypotheses of `C121_rpc` are met. -/
example : ∃ st ps', (rpcEnv id demoStem none (fun r (_ : Unit) => .ok { r with latOff := r.latOff + 1 }) fun _ => true).refineAll ⟨rpcsOf (demoRpcs 2), []⟩ [("a", ())] =
      (.ok (), st) ∧ st.params = rpcsOf (demoRpcs (2 + 1)) ∧
    rpcWriteParam plainCodec (fun _ => none) "d" (demoRpcs (2 + 1)) none false none none = (ps', .ok ()) ∧
    ∃ rpcs', (readFile plainCodec ps' ("d" ++ "/rpc_param.yaml") >>= readOtyRpc) = .ok rpcs' := by
  refine ⟨⟨rpcsOf (demoRpcs (2 + 1)), []⟩, _, ?_, rfl, rfl, ?_⟩
  · simp [RpcEnv.refineAll, RpcEnv.refineLoop, RpcEnv.gcpsOf, byName, rpcEnv, Dict.get?, Dict.erase, Dict.set, rpcsOf, demoRpcs]
    rfl
  · obtain ⟨rpcs', h, -⟩ := C121_rpc (S := ℝ) (C := Bool) (G := Unit) plainCodec (fun _ => rfl) demoLib (fun _ _ => []) (fun _ => none) _ "d" id demoStem none none
      (fun r _ => .ok r) (fun _ => true) (rpcsOf (demoRpcs (2 + 1))) [] _ (Or.inl rfl) (demoRpcs (2 + 1)) rfl none false none none rfl (by simp [Dict.Ok, demoRpcs])
      (by
        intro p hp
        obtain rfl := List.mem_singleton.1 hp
        exact {
          ok := by simp [Dict.Ok]
          cam_type := rfl
          im_size := ⟨_, _, rfl, Or.inl rfl, Or.inl rfl⟩
          rpc := ⟨_, rfl, (validate_iff _ (by
            simp [rpcCoeffSchema, numTys, Schema.Ok, Fields.Ok, Schemas.Ok, Fields.ofList, Schemas.ofList, List.replicate]) _).1 rfl⟩
          keys := by simp }) [] (fun _ h => absurd h List.not_mem_nil)
    exact ⟨rpcs', h⟩

/-- The hypotheses of `C121_models` are met by the model of the example of `C87_rpc`. -/
example : ∃ ps' rpcs', (readFile plainCodec ps' ("d" ++ "/rpc_param.yaml") >>= readOtyRpc) = .ok rpcs' := by
  obtain ⟨rpcs', h, -⟩ := C121_models (S := ℝ) (C := Bool) (G := Unit) plainCodec (fun _ => rfl) demoLib (fun _ _ => []) (fun _ => none) _ "d" id demoStem none none
    (fun r _ => .ok r) (fun _ => true) _ [] _ (Or.inl rfl) [("a", ((10, 5), demoRpc))] (by simp [Dict.Ok]) rfl none false none none rfl [] (fun _ h => absurd h List.not_mem_nil)
  exact ⟨_, rpcs', h⟩

end Verif.Command
