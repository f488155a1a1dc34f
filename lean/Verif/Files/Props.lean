import Verif.Files.Model
import Verif.ParamIO.RoundTrip2

/-!
# C14 and C15: output files
-/

set_option autoImplicit false

namespace Verif.Files

open ParamIO

variable {B F C : Type}

/-! ## Specification -/

/-- Every file of `fs` is in `fs'` with the same content. -/
def Keeps (fs fs' : FS B) : Prop := ∀ p b, fs p = some b → fs' p = some b

/-- The target is given as a path or `OpenFile`, not as an object that the caller opened. -/
def Target.Named : Target → Prop
  | .handle .. => False
  | _ => True

def Op.Named : Op F C B → Prop
  | .intParam t .. => t.Named
  | .extParam t .. => t.Named
  | .rpcParam t .. => t.Named
  | .gcpPts t .. => t.Named
  | .raster t .. => t.Named
  | .frame .. => True
  | .rpc .. => True

theorem named_ofile (p m : String) : (Target.ofile p m).Named := trivial

theorem Keeps.refl (fs : FS B) : Keeps fs fs := fun _ _ h => h

theorem Keeps.trans {a b c : FS B} (h1 : Keeps a b) (h2 : Keeps b c) : Keeps a c :=
  fun p x h => h2 p x (h1 p x h)

theorem openCheck_named {fs : FS B} {m fm : String} {t : Target} (ht : t.Named) {p : String}
    (h : openCheck fs m fm false t = .ok p) : fs p = none := by
  cases t with
  | handle p m c => exact absurd ht id
  | other => simp [openCheck] at h
  | path q =>
    simp only [openCheck, Bool.not_false, Bool.true_and] at h
    split_ifs at h with h1
    simp only [Except.ok.injEq] at h
    subst h
    simpa using h1
  | ofile q m =>
    simp only [openCheck, Bool.not_false, Bool.true_and] at h
    split_ifs at h with h1 h2
    simp only [Except.ok.injEq] at h
    subst h
    simpa using h2

theorem put_keeps {fs : FS B} {p : String} (h : fs p = none) (b : Option B) : Keeps fs (fs.put p b) := by
  intro q x hq
  unfold FS.put
  rw [if_neg, hq]
  rintro rfl
  rw [h] at hq
  exact absurd hq (by simp)

theorem writeWith_keeps (fs : FS B) (m fm : String) {t : Target} (ht : t.Named) (b : B)
    (fault : Option (Fault B)) : Keeps fs (writeWith fs m fm t false b fault).1 := by
  unfold writeWith
  cases h : openCheck fs m fm false t with
  | error e => exact Keeps.refl fs
  | ok p =>
    cases fault with
    | none => exact put_keeps (openCheck_named ht h) _
    | some f => exact put_keeps (openCheck_named ht h) _

theorem writeExtParam_keeps (cd : Codec F B) (lib : CrsLib C) (lla : C → List (Py F) → List (Py F)) (fs : FS B)
    {t : Target} (ht : t.Named) (d : Dict String (Ext F)) (crs : C) (fault : Option (Fault B)) :
    Keeps fs (writeExtParam cd lib lla fs t d crs false fault).1 := by
  unfold writeExtParam
  cases writeExt lib lla d crs with
  | error e => exact Keeps.refl fs
  | ok v => exact writeWith_keeps fs _ _ ht _ _

theorem run_keeps (cd : Codec F B) (lib : CrsLib C) (lla : C → List (Py F) → List (Py F)) (fs : FS B)
    (op : Op F C B) (h : op.Named) : Keeps fs (op.run cd lib lla false fs).1 := by
  cases op with
  | intParam t d f => exact writeWith_keeps fs _ _ h _ _
  | extParam t d crs f => exact writeExtParam_keeps cd lib lla fs h d crs f
  | rpcParam t d f => exact writeWith_keeps fs _ _ h _ _
  | gcpPts t d f => exact writeWith_keeps fs _ _ h _ _
  | raster t pre b f =>
    cases pre with
    | none => exact writeWith_keeps fs _ _ h _ _
    | some e => exact Keeps.refl fs
  | frame dir ints exts crs f1 f2 =>
    have h1 : Keeps fs (writeIntParam cd fs (.ofile (intFile dir) "wt") ints false f1).1 :=
      writeWith_keeps fs _ _ (named_ofile _ _) _ _
    simp only [Op.run, frameWriteParam]
    rcases hr : writeIntParam cd fs (.ofile (intFile dir) "wt") ints false f1 with ⟨fs1, r⟩
    rw [hr] at h1
    cases r with
    | error e => exact h1
    | ok u =>
      cases crs with
      | none => exact h1
      | some crs => exact h1.trans (writeExtParam_keeps cd lib lla fs1 (named_ofile _ _) exts crs f2)
  | rpc dir rpcs gcps f1 f2 =>
    have h1 : Keeps fs (writeRpcParam cd fs (.ofile (rpcFile dir) "wt") rpcs false f1).1 :=
      writeWith_keeps fs _ _ (named_ofile _ _) _ _
    simp only [Op.run, rpcWriteParam]
    rcases hr : writeRpcParam cd fs (.ofile (rpcFile dir) "wt") rpcs false f1 with ⟨fs1, r⟩
    rw [hr] at h1
    cases r with
    | error e => exact h1
    | ok u =>
      cases gcps with
      | none => exact h1
      | some g =>
        simp only
        split_ifs
        · exact h1
        · exact h1.trans (writeWith_keeps fs1 _ _ (named_ofile _ _) _ _)

/-- C14 (part): with `overwrite=False`, no sequence of calls with files given by path changes or deletes a
file, whatever goes wrong: neither files that were there at the start nor files that earlier calls of the
sequence made.  Missing: open file objects and datasets, for which `overwrite` is ignored
(`C14_handle_fails`). -/
theorem C14_no_overwrite_partial (cd : Codec F B) (lib : CrsLib C) (lla : C → List (Py F) → List (Py F))
    (fs : FS B) (ops ops' : List (Op F C B)) (h : ∀ op ∈ ops', op.Named) :
    Keeps (runAll cd lib lla false fs ops) (runAll cd lib lla false fs (ops ++ ops')) := by
  unfold runAll
  rw [List.foldl_append]
  generalize ops.foldl (fun fs op => (op.run cd lib lla false fs).1) fs = fs
  induction ops' generalizing fs with
  | nil => exact Keeps.refl fs
  | cons op ops ih =>
    rw [List.foldl_cons]
    exact (run_keeps cd lib lla fs op (h op (List.mem_cons_self ..))).trans
      (ih (fun o ho => h o (List.mem_cons_of_mem _ ho)) _)

/-- The path that a target names. -/
def Target.names : Target → String → Prop
  | .path p, q => p = q
  | .ofile p _, q => p = q
  | _, _ => False

/-- C14: writing to a file that exists raises and leaves everything as it was. -/
theorem C14_existing_raises (cd : Codec F B) (lib : CrsLib C) (lla : C → List (Py F) → List (Py F)) (fs : FS B)
    (t : Target) (p : String) (hp : t.names p) (hfs : (fs p).isSome) (op : Op F C B)
    (hop : (∃ d f, op = .intParam t d f) ∨ (∃ d crs f, op = .extParam t d crs f) ∨
      (∃ d f, op = .rpcParam t d f) ∨ (∃ d f, op = .gcpPts t d f) ∨ ∃ pre b f, op = .raster t pre b f) :
    ∃ e, op.run cd lib lla false fs = (fs, .error e) := by
  have key : ∀ m fm (b : B) fault, ∃ e, writeWith fs m fm t false b fault = (fs, .error e) := by
    intro m fm b fault
    have : ∃ e, openCheck fs m fm false t = .error e := by
      cases t with
      | handle p m c => exact absurd hp id
      | other => exact absurd hp id
      | path q =>
        cases hp
        exact ⟨_, by simp [openCheck, hfs]; rfl⟩
      | ofile q mm =>
        cases hp
        by_cases hm : fm = mm
        · exact ⟨_, by simp [openCheck, hfs, hm]; rfl⟩
        · exact ⟨_, by simp [openCheck, hm]; rfl⟩
    obtain ⟨e, he⟩ := this
    exact ⟨e, by unfold writeWith; rw [he]⟩
  rcases hop with ⟨d, f, rfl⟩ | ⟨d, crs, f, rfl⟩ | ⟨d, f, rfl⟩ | ⟨d, f, rfl⟩ | ⟨pre, b, f, rfl⟩
  · exact key _ _ _ _
  · simp only [Op.run, writeExtParam]
    cases writeExt lib lla d crs with
    | error e => exact ⟨e, rfl⟩
    | ok v => exact key _ _ _ _
  · exact key _ _ _ _
  · exact key _ _ _ _
  · cases pre with
    | none => exact key _ _ _ _
    | some e => exact ⟨e, rfl⟩

/-- C14: a file object that the caller opened is written to though `overwrite=False`. -/
theorem C14_handle_fails (cd : Codec F B) (lib : CrsLib C) (lla : C → List (Py F) → List (Py F)) (old : B)
    (hold : old ≠ cd.dump (writeInt [])) :
    ∃ (fs : FS B) (op : Op F C B), (op.run cd lib lla false fs).2 = .ok () ∧
      ¬ Keeps fs (op.run cd lib lla false fs).1 := by
  refine ⟨fun _ => some old, .intParam (.handle "f" (some "wt") false) [] none, rfl, ?_⟩
  intro h
  have := h "f" old rfl
  simp only [Op.run, writeIntParam, writeWith, openCheck, FS.put, Option.getD_some, ne_eq,
    not_true_eq_false, if_false, Bool.false_eq_true, if_true, Option.some.injEq] at this
  exact hold this.symm

/-- With `overwrite=True` a path is overwritten, so that C14 is not met by never writing. -/
example (cd : Codec F B) (lib : CrsLib C) (lla : C → List (Py F) → List (Py F)) (old : B) :
    ((Op.intParam (.path "f") [] none : Op F C B).run cd lib lla true (fun _ => some old)).1 "f" =
      some (cd.dump (writeInt [])) := rfl

/-! ## C15 -/

theorem intFile_ne_extFile (dir : String) : extFile dir ≠ intFile dir := by
  unfold extFile intFile
  intro h
  have := congrArg String.toList h
  simp only [String.toList_append, List.append_cancel_left_eq] at this
  exact absurd this (by decide)

/-- C15: `write_param` is not atomic: without CRS it raises after it has created the interior file; and when
only the exterior file exists it raises after it has created the interior file. -/
theorem C15_atomic_fails (cd : Codec F B) (lib : CrsLib C) (lla : C → List (Py F) → List (Py F)) (dir : String)
    (ints : Dict String (Dict String (Py F))) (exts : Dict String (Ext F)) :
    (∃ fs fs' : FS B, frameWriteParam cd lib lla fs dir ints exts none false none none =
        (fs', .error .crsMissingError) ∧
      fs (intFile dir) = none ∧ fs' (intFile dir) = some (cd.dump (writeInt ints))) ∧
    ∀ crs, lib.isProjected crs = true → ∀ old : B,
      ∃ fs fs' : FS B, frameWriteParam cd lib lla fs dir ints exts (some crs) false none none =
          (fs', .error .fileExistsError) ∧ fs (extFile dir) = some old ∧
        fs (intFile dir) = none ∧ fs' (intFile dir) = some (cd.dump (writeInt ints)) := by
  have hne := intFile_ne_extFile dir
  constructor
  · refine ⟨fun _ => none, _, rfl, rfl, ?_⟩
    simp [FS.put]
  · intro crs hcrs old
    refine ⟨fun p => if p = extFile dir then some old else none,
      FS.put (fun p => if p = extFile dir then some old else none) (intFile dir)
        (some (cd.dump (writeInt ints))), ?_, by simp, by simp [hne.symm], by unfold FS.put; rw [if_pos rfl]⟩
    simp [frameWriteParam, writeIntParam, writeWith, openCheck, hne.symm, writeExtParam, writeExt, hcrs, FS.put,
      hne]

/-- C15 (part): when `write_param` raises without an I/O fault, the exterior file is as it was and no other
file than the interior file has changed; and nothing has changed if the error is that the interior file
exists.  Missing: the interior file may have been created or overwritten (`C15_atomic_fails`). -/
theorem C15_write_param_partial (cd : Codec F B) (lib : CrsLib C) (lla : C → List (Py F) → List (Py F))
    (fs : FS B) (dir : String) (ints : Dict String (Dict String (Py F))) (exts : Dict String (Ext F))
    (crs : Option C) (overwrite : Bool) (e : PyErr)
    (h : (frameWriteParam cd lib lla fs dir ints exts crs overwrite none none).2 = .error e) :
    (∀ p, p ≠ intFile dir → (frameWriteParam cd lib lla fs dir ints exts crs overwrite none none).1 p = fs p) ∧
    (overwrite = false → (fs (intFile dir)).isSome →
      (frameWriteParam cd lib lla fs dir ints exts crs overwrite none none).1 = fs) := by
  have h1 : writeIntParam cd fs (.ofile (intFile dir) "wt") ints overwrite none =
      if (!overwrite && (fs (intFile dir)).isSome) = true then (fs, .error .fileExistsError)
      else (fs.put (intFile dir) (some (cd.dump (writeInt ints))), .ok ()) := by
    simp only [writeIntParam, writeWith, openCheck]
    split_ifs <;> simp_all
  unfold frameWriteParam at *
  rw [h1] at h ⊢
  clear h1
  by_cases hc : (!overwrite && (fs (intFile dir)).isSome) = true
  · rw [if_pos hc] at h ⊢
    exact ⟨fun _ _ => rfl, fun _ _ => rfl⟩
  · rw [if_neg hc] at h ⊢
    refine ⟨?_, fun h2 h3 => absurd (by simp [h2, h3]) hc⟩
    intro p hp
    have hput : fs.put (intFile dir) (some (cd.dump (writeInt ints))) p = fs p := by
      simp [FS.put, hp]
    cases crs with
    | none => exact hput
    | some crs =>
      simp only at h ⊢
      unfold writeExtParam at *
      cases hw : writeExt lib lla exts crs with
      | error e' => exact hput
      | ok v =>
        rw [hw] at h
        simp only [writeWith] at h ⊢
        cases ho : openCheck (fs.put (intFile dir) (some (cd.dump (writeInt ints)))) "wt" "wt" overwrite
            (.ofile (extFile dir) "wt") with
        | error e' => exact hput
        | ok q =>
          rw [ho] at h
          simp at h

/-- C15: and when it succeeds, both files have been written and no other file has changed. -/
theorem C15_success (cd : Codec F B) (lib : CrsLib C) (lla : C → List (Py F) → List (Py F))
    (fs fs' : FS B) (dir : String) (ints : Dict String (Dict String (Py F))) (exts : Dict String (Ext F))
    (crs : Option C) (overwrite : Bool) (f1 f2 : Option (Fault B))
    (h : frameWriteParam cd lib lla fs dir ints exts crs overwrite f1 f2 = (fs', .ok ())) :
    ∃ c v, crs = some c ∧ writeExt lib lla exts c = .ok v ∧
      fs' (intFile dir) = some (cd.dump (writeInt ints)) ∧ fs' (extFile dir) = some (cd.dump v) ∧
      ∀ p, p ≠ intFile dir → p ≠ extFile dir → fs' p = fs p := by
  have hne := intFile_ne_extFile dir
  unfold frameWriteParam writeIntParam writeExtParam writeWith at h
  cases h1 : openCheck fs "wt" "wt" overwrite (.ofile (intFile dir) "wt") with
  | error e => simp [h1] at h
  | ok p =>
    have hp : p = intFile dir := by
      simp only [openCheck] at h1
      split_ifs at h1 <;> simp_all
    subst hp
    rw [h1] at h
    cases f1 with
    | some f => simp at h
    | none =>
      simp only at h
      cases crs with
      | none => simp at h
      | some c =>
        simp only at h
        cases hw : writeExt lib lla exts c with
        | error e => simp [hw] at h
        | ok v =>
          rw [hw] at h
          simp only at h
          cases h2 : openCheck (fs.put (intFile dir) (some (cd.dump (writeInt ints)))) "wt" "wt" overwrite
              (.ofile (extFile dir) "wt") with
          | error e => simp [h2] at h
          | ok q =>
            have hq : q = extFile dir := by
              simp only [openCheck] at h2
              split_ifs at h2 <;> simp_all
            subst hq
            rw [h2] at h
            cases f2 with
            | some f => simp at h
            | none =>
              simp only [Prod.mk.injEq, and_true] at h
              subst h
              refine ⟨c, v, rfl, hw, ?_, ?_, ?_⟩
              · simp [FS.put, hne.symm]
              · simp [FS.put]
              · intro p h3 h4
                simp [FS.put, h3, h4]

/-- The three outcomes on an empty file system: success, error before anything, error in between. -/
example (cd : Codec F B) (b : B) :
    (frameWriteParam (C := Bool) cd ⟨fun _ => none, fun _ => "", fun b => b⟩ (fun _ l => l) (fun _ => none) "d" [] []
      (some true) false none none).2 = .ok () ∧
    (frameWriteParam (C := Bool) cd ⟨fun _ => none, fun _ => "", fun b => b⟩ (fun _ l => l) (fun _ => some b) "d" [] []
      (some true) false none none).2 = .error .fileExistsError ∧
    (frameWriteParam (C := Bool) cd ⟨fun _ => none, fun _ => "", fun b => b⟩ (fun _ l => l) (fun _ => some b) "d" [] []
      (some false) true none none).2 = .error .crsError := ⟨rfl, rfl, rfl⟩

end Verif.Files
