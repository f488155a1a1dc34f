import Verif.Files.Props

/-!
# C14 (targets that cannot be written) and C68: saved factories
-/

set_option autoImplicit false

namespace Verif.Files

open ParamIO

variable {B F C : Type}

/-! ## C14: targets that cannot be written -/

/-- The functions that write one text file. -/
def Op.text : Op F C B → Option Target
  | .intParam t .. => some t
  | .extParam t .. => some t
  | .rpcParam t .. => some t
  | .gcpPts t .. => some t
  | _ => none

/-- Targets that cannot be written as text: closed file objects, file objects and `OpenFile`s in another mode, other things. -/
def Target.unusable : Target → Prop
  | .path _ => False
  | .ofile _ m => m ≠ "wt"
  | .handle _ m closed => closed = true ∨ ∃ m', m = some m' ∧ m' ≠ "wt"
  | .other => True

theorem openCheck_unusable (fs : FS B) (overwrite : Bool) (t : Target) (h : t.unusable) :
    openCheck fs "wt" "wt" overwrite t = .error (match t with | .other => .typeError | _ => .osError) := by
  cases t with
  | path p => exact absurd h id
  | ofile p m => simp only [openCheck]; rw [if_pos (Ne.symm h)]
  | other => rfl
  | handle p m closed =>
    simp only [openCheck]
    rcases h with rfl | ⟨m', rfl, hm⟩
    · rfl
    · by_cases hc : closed = true
      · rw [if_pos hc]
      · rw [if_neg hc, if_pos (by simpa using hm)]

/-- C14: a text file is not written to a target that is not open for writing text; nothing changes in the file system, also
with `overwrite=True`.  The error is `TypeError` for a target that is not a file and `OSError` otherwise, except where exterior
parameters are refused before. -/
theorem C14_unusable (cd : Codec F B) (lib : CrsLib C) (lla : C → List (Py F) → List (Py F)) (fs : FS B) (overwrite : Bool)
    (op : Op F C B) (t : Target) (ht : op.text = some t) (hu : t.unusable) :
    (op.run cd lib lla overwrite fs).1 = fs ∧
      ((∃ d crs f e, op = .extParam t d crs f ∧ writeExt lib lla d crs = .error e ∧
        (op.run cd lib lla overwrite fs).2 = .error e) ∨
      (t = .other ∧ (op.run cd lib lla overwrite fs).2 = .error .typeError) ∨
      (t ≠ .other ∧ (op.run cd lib lla overwrite fs).2 = .error .osError)) := by
  have key : ∀ b fault, (writeWith fs "wt" "wt" t overwrite b fault).1 = fs ∧
      ((t = .other ∧ (writeWith fs "wt" "wt" t overwrite b fault).2 = .error .typeError) ∨
      (t ≠ .other ∧ (writeWith fs "wt" "wt" t overwrite b fault).2 = .error .osError)) := by
    intro b fault
    unfold writeWith
    rw [openCheck_unusable fs overwrite t hu]
    refine ⟨rfl, ?_⟩
    cases t with
    | other => exact .inl ⟨rfl, rfl⟩
    | path p => exact .inr ⟨(by intro h; cases h), rfl⟩
    | ofile p m => exact .inr ⟨(by intro h; cases h), rfl⟩
    | handle p m c => exact .inr ⟨(by intro h; cases h), rfl⟩
  cases op with
  | intParam t' d f => cases ht; exact ⟨(key _ _).1, .inr (key _ _).2⟩
  | rpcParam t' d f => cases ht; exact ⟨(key _ _).1, .inr (key _ _).2⟩
  | gcpPts t' d f => cases ht; exact ⟨(key _ _).1, .inr (key _ _).2⟩
  | extParam t' d crs f =>
    cases ht
    simp only [Op.run, writeExtParam]
    cases hw : writeExt lib lla d crs with
    | error e => exact ⟨rfl, .inl ⟨d, crs, f, e, rfl, hw, rfl⟩⟩
    | ok v => exact ⟨(key _ _).1, .inr (key _ _).2⟩
  | raster => cases ht
  | frame => cases ht
  | rpc => cases ht

example : (Op.intParam (.ofile "f.yaml" "rb") [] none : Op ℕ ℕ ℕ).text = some (.ofile "f.yaml" "rb") ∧
    (Target.ofile "f.yaml" "rb").unusable ∧ (Target.handle "f.yaml" (some "rt") false).unusable ∧
    (Target.handle "f.yaml" none true).unusable := by
  simp [Op.text, Target.unusable]

/-- Where `t` can be written in the mode of an `OpenFile` `fileMode` and of a file object or dataset `mode`. -/
def Target.usable (t : Target) (mode fileMode : String) (fs : FS B) (overwrite : Bool) (p : String) : Prop :=
  ((t = .path p ∨ t = .ofile p fileMode) ∧ (overwrite = true ∨ fs p = none)) ∨ t = .handle p none false ∨ t = .handle p (some mode) false

theorem writeWith_usable {t : Target} {mode fileMode : String} {fs : FS B} {overwrite : Bool} {p : String}
    (h : t.usable mode fileMode fs overwrite p) (b : B) :
    writeWith fs mode fileMode t overwrite b none = (fs.put p (some b), .ok ()) := by
  have hc : openCheck fs mode fileMode overwrite t = .ok p := by
    rcases h with ⟨h, ho⟩ | rfl | rfl
    · have h3 : ¬ ((!overwrite && (fs p).isSome) = true) := by
        rcases ho with ho | ho <;> simp [ho]
      rcases h with rfl | rfl <;> simp only [openCheck]
      · rw [if_neg h3]
      · rw [if_neg (by simp), if_neg h3]
    · simp [openCheck]
    · simp [openCheck]
  unfold writeWith
  rw [hc]

/-- C14: a file that is not there, or that may be overwritten, or a file object of the caller, is written if there is no fault, and no other file changes: text
files with an `OpenFile` of mode `wt` or a file object of mode `wt`, images with an `OpenFile` of mode `wb` or a dataset of mode `w`. -/
theorem C14_written (cd : Codec F B) (lib : CrsLib C) (lla : C → List (Py F) → List (Py F)) (fs : FS B) (overwrite : Bool) (t : Target) (p : String) :
    (t.usable "wt" "wt" fs overwrite p →
      (∀ d, (Op.intParam t d none : Op F C B).run cd lib lla overwrite fs = (fs.put p (some (cd.dump (writeInt d))), .ok ())) ∧
      (∀ d crs v, writeExt lib lla d crs = .ok v →
        (Op.extParam t d crs none : Op F C B).run cd lib lla overwrite fs = (fs.put p (some (cd.dump v)), .ok ())) ∧
      (∀ d, (Op.rpcParam t d none : Op F C B).run cd lib lla overwrite fs = (fs.put p (some (cd.dump (writeRpc d))), .ok ())) ∧
      (∀ d, (Op.gcpPts t d none : Op F C B).run cd lib lla overwrite fs = (fs.put p (some (cd.dump (writeGcps d))), .ok ()))) ∧
    (t.usable "w" "wb" fs overwrite p →
      ∀ b, (Op.raster t none b none : Op F C B).run cd lib lla overwrite fs = (fs.put p (some b), .ok ())) := by
  refine ⟨fun h => ⟨fun d => writeWith_usable h _, fun d crs v hv => ?_, fun d => writeWith_usable h _, fun d => writeWith_usable h _⟩,
    fun h b => writeWith_usable h _⟩
  simp only [Op.run, writeExtParam, hv]
  exact writeWith_usable h _

example : (Target.ofile "f.tif" "wb").usable "w" "wb" (fun _ => none : FS ℕ) false "f.tif" ∧
    (Target.path "f.tif").usable "w" "wb" (fun _ => some 1 : FS ℕ) true "f.tif" :=
  ⟨.inl ⟨.inr rfl, .inr rfl⟩, .inl ⟨.inl rfl, .inl rfl⟩⟩

/-! ## C68: reading what was saved -/

/-- orthority/param_io.py:215-220, 406-411, 530-535, 1383-1388: open a file for reading and decode it.  A file that is not there
raises `FileNotFoundError`, and any error while decoding becomes `ParamError`. -/
def readFile (cd : Codec F B) (fs : FS B) (p : String) : Res (Py F) :=
  match fs p with
  | none => .error .fileNotFoundError
  | some b => match cd.load b with
    | none => .error .paramError
    | some v => .ok v

/-- The keys are strings and values equal as dictionaries, in the same order. -/
def SameDicts (d : Dict String (Dict String (Py F))) (d' : Dict Key (Dict String (Py F))) : Prop :=
  List.Forall₂ (fun a b => b.1 = Key.str a.1 ∧ DictEq a.2 b.2) d d'

theorem later (cd : Codec F B) (lib : CrsLib C) (lla : C → List (Py F) → List (Py F)) (fs : FS B) (ops : List (Op F C B))
    (hops : ∀ op ∈ ops, op.Named) : Keeps fs (runAll cd lib lla false fs ops) := by
  have := C14_no_overwrite_partial cd lib lla fs [] ops hops
  exact this

theorem readFile_keeps (cd : Codec F B) (hcd : ∀ v, cd.load (cd.dump v) = some v) {fs fs' : FS B} (hk : Keeps fs fs') {p : String}
    {v : Py F} (h : fs p = some (cd.dump v)) : readFile cd fs' p = .ok v := by
  unfold readFile
  rw [hk p _ h]
  simp only [hcd]

/-- C68: a frame camera factory that was saved can be made again from the two files: the same cameras with equal interior
parameters, the same images with the same exterior parameters, and the same CRS; whatever the directory held before, with or
without `overwrite`, and after any later calls that do not overwrite.  The hypotheses on the parameters are those of
`C20_int_round_trip_partial` and `C21_ext_round_trip`. -/
theorem C68_frame_partial (cd : Codec F B) (hcd : ∀ v, cd.load (cd.dump v) = some v) (lib : CrsLib C)
    (lla : C → List (Py F) → List (Py F)) (lower : String → String) (fs fs' : FS B) (dir : String)
    (ints : Dict String (Dict String (Py F))) (exts : Dict String (Ext F)) (crs : C) (overwrite : Bool)
    (f1 f2 : Option (Fault B))
    (hsave : frameWriteParam cd lib lla fs dir ints exts (some crs) overwrite f1 f2 = (fs', .ok ()))
    (hi : Dict.Ok ints) (hine : ints ≠ []) (hcam : "camera" ∉ ints.map Prod.fst)
    (hiw : ∀ p ∈ ints, ∃ t, IntWF lower p.2 t)
    (hparse : lib.parse (lib.toString crs) = some crs)
    (hlla : ∀ l, ∃ x ls, lla crs l = x :: ls ∧ IsNum x ∧ ∀ y ∈ ls, IsNum y)
    (he : Dict.Ok exts) (hew : ∀ p ∈ exts, p.2.WF) (hene : exts ≠ [])
    (ops : List (Op F C B)) (hops : ∀ op ∈ ops, op.Named) :
    ∃ ints', SameDicts ints ints' ∧
      ((readFile cd (runAll cd lib lla false fs' ops) (intFile dir)) >>= readOtyInt lower) = .ok ints' ∧
      ((readFile cd (runAll cd lib lla false fs' ops) (extFile dir)) >>= readOtyExt lib) =
        .ok (crs, exts.map fun p => (.str p.1, p.2)) := by
  obtain ⟨c, v, hc, hv, h1, h2, -⟩ := C15_success cd lib lla fs fs' dir ints exts (some crs) overwrite f1 f2 hsave
  cases hc
  have hk := later cd lib lla fs' ops hops
  rw [readFile_keeps cd hcd hk h1, readFile_keeps cd hcd hk h2, Res.ok_bind, Res.ok_bind]
  obtain ⟨ints', h3, h4⟩ := C20_int_round_trip_partial lower ints hi hine hcam hiw
  have hproj : lib.isProjected crs = true := by
    by_contra hn
    rw [C21_geographic_refused lib lla crs (by simpa using hn)] at hv
    cases hv
  obtain ⟨json, h5, h6⟩ := C21_ext_round_trip lib lla exts crs hproj hparse hlla he hew hene
  rw [hv] at h5
  cases h5
  exact ⟨ints', h4, h3, h6⟩

theorem gcpFile_ne_rpcFile (dir : String) : gcpFile dir ≠ rpcFile dir := by
  unfold gcpFile rpcFile
  intro h
  have := congrArg String.toList h
  simp only [String.toList_append, List.append_cancel_left_eq] at this
  exact absurd this (by decide)

/-- What `RpcCameras.write_param` leaves when it succeeds. -/
theorem rpc_success (cd : Codec F B) (fs fs' : FS B) (dir : String) (rpcs : Dict String (Dict String (Py F)))
    (gcps : Option (Dict String (List (Gcp F)))) (overwrite : Bool) (f1 f2 : Option (Fault B))
    (h : rpcWriteParam cd fs dir rpcs gcps overwrite f1 f2 = (fs', .ok ())) :
    fs' (rpcFile dir) = some (cd.dump (writeRpc rpcs)) ∧
      (∀ g, gcps = some g → g ≠ [] → fs' (gcpFile dir) = some (cd.dump (writeGcps g))) ∧
      (gcps = none ∨ gcps = some [] → fs' (gcpFile dir) = fs (gcpFile dir)) ∧
      ∀ p, p ≠ rpcFile dir → p ≠ gcpFile dir → fs' p = fs p := by
  have hne := gcpFile_ne_rpcFile dir
  unfold rpcWriteParam writeRpcParam writeGcpFile writeWith at h
  cases h1 : openCheck fs "wt" "wt" overwrite (.ofile (rpcFile dir) "wt") with
  | error e => simp [h1] at h
  | ok p =>
    have hp : p = rpcFile dir := by
      simp only [openCheck] at h1
      split_ifs at h1 <;> simp_all
    subst hp
    rw [h1] at h
    cases f1 with
    | some f => simp at h
    | none =>
      simp only at h
      have hput : ∀ (g : FS B) (q : String) (b : Option B) (p : String), p ≠ q → g.put q b p = g p := by
        intro g q b p hpq; unfold FS.put; rw [if_neg hpq]
      have hself : ∀ (g : FS B) (q : String) (b : Option B), g.put q b q = b := by
        intro g q b; unfold FS.put; rw [if_pos rfl]
      cases gcps with
      | none =>
        simp only [Prod.mk.injEq, and_true] at h
        subst h
        exact ⟨hself _ _ _, fun g hg => (by cases hg), fun _ => hput _ _ _ _ hne, fun p h2 _ => hput _ _ _ _ h2⟩
      | some g =>
        simp only at h
        cases g with
        | nil =>
          simp only [List.isEmpty_nil, if_true, Prod.mk.injEq, and_true] at h
          subst h
          exact ⟨hself _ _ _, fun g hg hn => (by cases hg; exact absurd rfl hn), fun _ => hput _ _ _ _ hne,
            fun p h2 _ => hput _ _ _ _ h2⟩
        | cons x l =>
          simp only [List.isEmpty_cons, Bool.false_eq_true, if_false] at h
          cases h2 : openCheck (fs.put (rpcFile dir) (some (cd.dump (writeRpc rpcs)))) "wt" "wt" overwrite
              (.ofile (gcpFile dir) "wt") with
          | error e => simp [h2] at h
          | ok q =>
            have hq : q = gcpFile dir := by
              simp only [openCheck] at h2
              split_ifs at h2 <;> simp_all
            subst hq
            rw [h2] at h
            cases f2 with
            | some f => simp at h
            | none =>
              simp only [Prod.mk.injEq, and_true] at h
              subst h
              refine ⟨?_, fun g hg _ => ?_, fun h3 => ?_, fun p h3 h4 => ?_⟩
              · rw [hput _ _ _ _ hne.symm, hself]
              · cases hg; exact hself _ _ _
              · rcases h3 with h3 | h3 <;> cases h3
              · rw [hput _ _ _ _ h4, hput _ _ _ _ h3]

/-- C68: an RPC camera factory that was saved can be made again from its file, with the same images and equal parameters; and
when it was refined, its GCPs can be read from the other file.  The hypotheses on the parameters are those of
`C22_rpc_round_trip` and `C19_gcps_round_trip`. -/
theorem C68_rpc (cd : Codec F B) (hcd : ∀ v, cd.load (cd.dump v) = some v) (lib : CrsLib C)
    (lla : C → List (Py F) → List (Py F)) (fs fs' : FS B) (dir : String) (rpcs : Dict String (Dict String (Py F)))
    (gcps : Option (Dict String (List (Gcp F)))) (overwrite : Bool) (f1 f2 : Option (Fault B))
    (hsave : rpcWriteParam cd fs dir rpcs gcps overwrite f1 f2 = (fs', .ok ()))
    (hr : Dict.Ok rpcs) (hrw : ∀ p ∈ rpcs, RpcWF p.2)
    (hg : ∀ g, gcps = some g → Dict.Ok g ∧ ∀ p ∈ g, (∀ x ∈ p.2, x.WF) ∧ p.2 ≠ [])
    (ops : List (Op F C B)) (hops : ∀ op ∈ ops, op.Named) :
    (∃ rpcs', SameDicts rpcs rpcs' ∧
      ((readFile cd (runAll cd lib lla false fs' ops) (rpcFile dir)) >>= readOtyRpc) = .ok rpcs') ∧
    ∀ g, gcps = some g → g ≠ [] →
      ((readFile cd (runAll cd lib lla false fs' ops) (gcpFile dir)) >>= readOtyGcps) =
        .ok (g.map fun p => (.str p.1, p.2)) := by
  obtain ⟨h1, h2, -, -⟩ := rpc_success cd fs fs' dir rpcs gcps overwrite f1 f2 hsave
  have hk := later cd lib lla fs' ops hops
  constructor
  · obtain ⟨r, h3, h4⟩ := C22_rpc_round_trip rpcs hr hrw
    exact ⟨r, h4, by rw [readFile_keeps cd hcd hk h1, Res.ok_bind, h3]⟩
  · intro g hgg hne
    obtain ⟨hok, hw⟩ := hg g hgg
    rw [readFile_keeps cd hcd hk (h2 g hgg hne), Res.ok_bind]
    exact C19_gcps_round_trip_all g hok (fun p hp => (hw p hp).1) (fun p hp => (hw p hp).2) hne

/-- Where C68 fails: a factory that was not refined, saved with `overwrite=True` in the directory of one that was, leaves the
GCPs of that other factory beside its parameters. -/
theorem C68_stale_gcps_fails (cd : Codec F B) (dir : String) (rpcs rpcs' : Dict String (Dict String (Py F)))
    (g : Dict String (List (Gcp F))) (hg : g ≠ []) (fs fs1 fs2 : FS B) (overwrite : Bool)
    (h1 : rpcWriteParam cd fs dir rpcs (some g) overwrite none none = (fs1, .ok ()))
    (h2 : rpcWriteParam cd fs1 dir rpcs' none true none none = (fs2, .ok ())) :
    fs2 (rpcFile dir) = some (cd.dump (writeRpc rpcs')) ∧ fs2 (gcpFile dir) = some (cd.dump (writeGcps g)) := by
  obtain ⟨-, ha, -, -⟩ := rpc_success cd fs fs1 dir rpcs (some g) overwrite none none h1
  obtain ⟨hb, -, hc, -⟩ := rpc_success cd fs1 fs2 dir rpcs' none true none none h2
  exact ⟨hb, by rw [hc (.inl rfl), ha g rfl hg]⟩

/-- C68: the names of the files that `write_param` makes, and that no other file is changed. -/
theorem C68_names (cd : Codec F B) (lib : CrsLib C) (lla : C → List (Py F) → List (Py F)) (fs fs' : FS B) (dir : String) (overwrite : Bool)
    (f1 f2 : Option (Fault B)) :
    (∀ ints exts crs, frameWriteParam cd lib lla fs dir ints exts crs overwrite f1 f2 = (fs', .ok ()) →
      ∃ c v, crs = some c ∧ writeExt lib lla exts c = .ok v ∧ fs' (dir ++ "/int_param.yaml") = some (cd.dump (writeInt ints)) ∧
        fs' (dir ++ "/ext_param.geojson") = some (cd.dump v) ∧
        ∀ p, p ≠ dir ++ "/int_param.yaml" → p ≠ dir ++ "/ext_param.geojson" → fs' p = fs p) ∧
    (∀ rpcs gcps, rpcWriteParam cd fs dir rpcs gcps overwrite f1 f2 = (fs', .ok ()) →
      fs' (dir ++ "/rpc_param.yaml") = some (cd.dump (writeRpc rpcs)) ∧
        (∀ g, gcps = some g → g ≠ [] → fs' (dir ++ "/gcps.geojson") = some (cd.dump (writeGcps g))) ∧
        (gcps = none ∨ gcps = some [] → fs' (dir ++ "/gcps.geojson") = fs (dir ++ "/gcps.geojson")) ∧
        ∀ p, p ≠ dir ++ "/rpc_param.yaml" → p ≠ dir ++ "/gcps.geojson" → fs' p = fs p) :=
  ⟨fun ints exts crs h => C15_success cd lib lla fs fs' dir ints exts crs overwrite f1 f2 h,
    fun rpcs gcps h => rpc_success cd fs fs' dir rpcs gcps overwrite f1 f2 h⟩

/-- Values kept as they are. -/
def demoCodec : Codec Rat (Py Rat) := ⟨id, some⟩

/-- A refined factory is saved, and read, in an empty directory: the hypotheses of `C68_rpc` and `C68_stale_gcps_fails`. -/
example : (rpcWriteParam demoCodec (fun _ => none) "d" [("a.tif", [("cam_type", .str "rpc"),
      ("im_size", .tuple [.int 3, .int 4]), ("rpc", demoRpc (1 : Rat) (.float 2))])]
      (some [("a.tif", [⟨[.int 1, .int 2], [.float 1, .float 2, .int 3], .str "x", .null⟩])]) false none none).2 = .ok () ∧
    (rpcWriteParam demoCodec (fun _ => some .null) "d" [] none true none none).2 = .ok () := ⟨rfl, rfl⟩

/-- The same for a frame camera factory. -/
example : (frameWriteParam (C := Bool) demoCodec ⟨fun _ => some true, fun _ => "EPSG:32634", fun b => b⟩
      (fun _ _ => [.float 1, .float 2]) (fun _ => none) "d" [("c", demoCam (1 : Rat))]
      [("a.tif", ⟨[.int 1, .int 2, .int 3], [.float 1, .float 2, .int 3], .str "c"⟩)] (some true) false none none).2 = .ok () ∧
    "camera" ∉ [("c", demoCam (1 : Rat))].map Prod.fst ∧ ∃ t, IntWF id (demoCam (1 : Rat)) t :=
  ⟨by decide +kernel, by decide, .pinhole, {
    ok := by simp [Dict.Ok, demoCam]
    cam_type := rfl
    lower := rfl
    im_size := ⟨_, rfl⟩
    focal_len := ⟨_, rfl, by intro l h; cases h⟩
    sensor_size := .inl rfl
    rest := by
      intro k v h hn
      simp only [demoCam, List.mem_cons, Prod.mk.injEq, List.not_mem_nil, or_false] at h
      rcases h with ⟨rfl, -⟩ | ⟨rfl, -⟩ | ⟨rfl, -⟩ <;> simp at hn }⟩

end Verif.Files
