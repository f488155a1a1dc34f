import Verif.ParamIO.Oty
import Verif.ParamIO.SchemaProps

/-!
# C17 to C22: Orthority parameter files
-/

set_option autoImplicit false

namespace Verif.ParamIO

variable {F : Type} {C : Type}

theorem ok_bind {α β : Type} (a : α) (f : α → Res β) : ((Except.ok a : Res α) >>= f) = f a := rfl

theorem error_bind {α β : Type} (e : PyErr) (f : α → Res β) :
    ((Except.error e : Res α) >>= f) = .error e := rfl

theorem repack_validate (s : Schema) (hs : s.Ok) (v : Py F) :
    (repack (validate s v) = .ok () ∧ Conforms false s v) ∨ repack (validate s v) = .error .paramError := by
  cases h : validate s v with
  | ok u => exact Or.inl ⟨rfl, (validate_iff s hs v).1 h⟩
  | error e =>
    right
    rcases C16_errors s hs v e h with rfl | rfl | rfl <;> rfl

/-! ## C17 -/

/-- The result is a value or `ParamError`. -/
def OkOrParamError {α : Type} (r : Res α) : Prop := (∃ a, r = .ok a) ∨ r = .error .paramError

theorem loop_ok {α β : Type} {f : β → α → Res β} {l : List α} (h : ∀ a ∈ l, ∀ b, ∃ b', f b a = .ok b') :
    ∀ b, ∃ b', loop f b l = .ok b' := by
  induction l with
  | nil => exact fun b => ⟨b, rfl⟩
  | cons a l ih =>
    intro b
    obtain ⟨b', hb⟩ := h a (List.mem_cons_self ..) b
    unfold loop
    rw [hb]
    exact ih (fun a ha => h a (List.mem_cons_of_mem _ ha)) b'

theorem loop_okOrParam {α β : Type} {f : β → α → Res β} {l : List α}
    (h : ∀ a ∈ l, ∀ b, OkOrParamError (f b a)) : ∀ b, OkOrParamError (loop f b l) := by
  induction l with
  | nil => exact fun b => Or.inl ⟨b, rfl⟩
  | cons a l ih =>
    intro b
    unfold loop
    rcases h a (List.mem_cons_self ..) b with ⟨b', hb⟩ | hb
    · rw [hb]
      exact ih (fun a ha => h a (List.mem_cons_of_mem _ ha)) b'
    · rw [hb]
      exact Or.inr rfl

theorem getItem_dict {d : List (Key × Py F)} {k : String} {x : Py F} (h : Dict.get? d (.str k) = some x) :
    Py.getItem (.dict d) k = .ok x := by
  simp [Py.getItem, h]

theorem gcpSchema_ok : gcpSchema.Ok := by
  simp [gcpSchema, numTys, Schema.Ok, Fields.Ok, Schemas.Ok, Fields.ofList, Schemas.ofList]

theorem extSchema_ok : extSchema.Ok := by
  simp [extSchema, numTys, Schema.Ok, Fields.Ok, Schemas.Ok, Fields.ofList, Schemas.ofList]

theorem rpcSchema_ok : rpcSchema.Ok := by
  simp [rpcSchema, numTys, Schema.Ok, Fields.Ok, Schemas.Ok, Fields.ofList, Schemas.ofList, List.replicate]

/-- C17: reading any decoded GCP file gives GCPs or `ParamError`. -/
theorem C17_gcps_total (json : Py F) : OkOrParamError (readOtyGcps json) := by
  unfold readOtyGcps
  rcases repack_validate gcpSchema gcpSchema_ok json with ⟨h1, h2⟩ | h1
  swap
  · rw [h1]; exact Or.inr rfl
  rw [h1, ok_bind]
  simp only [gcpSchema, Fields.ofList, Schemas.ofList, Conforms, FieldsConform] at h2
  obtain ⟨d, rfl, -, ⟨x, hx, l, rfl, -, hl⟩, -⟩ := h2
  rw [getItem_dict hx, ok_bind]
  simp only [Py.items, ok_bind]
  left
  refine loop_ok (fun a ha b => ?_) []
  obtain ⟨fd, rfl, -, ⟨pv, hp, pd, rfl, ⟨jiv, hji, jl, rfl, -⟩, ⟨fnv, hfn, hfs⟩, ⟨idv, hid, -⟩,
    ⟨infov, hinfo, -⟩, -⟩, ⟨gv, hg, gd, rfl, -, ⟨cv, hc, cl, rfl, -⟩, -⟩, -⟩ := hl a ha
  unfold addFeature
  rw [getItem_dict hp, ok_bind, getItem_dict hfn, ok_bind, getItem_dict hg, ok_bind, getItem_dict hc,
    ok_bind]
  simp only [Py.items, ok_bind]
  rw [getItem_dict hji, ok_bind]
  simp only [ok_bind]
  rw [getItem_dict hid, ok_bind, getItem_dict hinfo, ok_bind]
  cases fnv with
  | str s =>
    simp only [keyOf, ok_bind]
    cases Dict.get? b (.str s) <;> exact ⟨_, rfl⟩
  | _ => simp [Py.isInstance] at hfs

/-- C17: reading any decoded exterior parameter file gives parameters or `ParamError`. -/
theorem C17_ext_total (lib : CrsLib C) (json : Py F) : OkOrParamError (readOtyExt lib json) := by
  unfold readOtyExt otyReaderInit
  rcases repack_validate extSchema extSchema_ok json with ⟨h1, h2⟩ | h1
  swap
  · rw [h1]; exact Or.inr rfl
  rw [h1, ok_bind]
  simp only [extSchema, Fields.ofList, Schemas.ofList, Conforms, FieldsConform] at h2
  obtain ⟨d, rfl, -, ⟨cv, hcv, hcs⟩, ⟨x, hx, l, rfl, -, hl⟩, -⟩ := h2
  rw [getItem_dict hcv, ok_bind]
  cases cv with
  | str s =>
    simp only
    cases lib.parse s with
    | none => exact Or.inr rfl
    | some crs =>
      left
      simp only [ok_bind]
      rw [getItem_dict hx, ok_bind]
      simp only [Py.items, ok_bind]
      have hstep : ∀ a ∈ l, ∀ b, ∃ b', addExt b a = .ok b' := by
        intro a ha b
        obtain ⟨fd, rfl, -, ⟨pv, hp, pd, rfl, ⟨fnv, hfn, hfs⟩, ⟨cam, hcam, -⟩, ⟨xv, hxv, xl, rfl, -⟩,
          ⟨ov, hov, ol, rfl, -⟩, -⟩, -⟩ := hl a ha
        unfold addExt
        rw [getItem_dict hp, ok_bind, getItem_dict hfn, ok_bind, getItem_dict hxv, ok_bind]
        simp only [Py.items, ok_bind]
        rw [getItem_dict hov, ok_bind]
        simp only [ok_bind]
        rw [getItem_dict hcam, ok_bind]
        cases fnv with
        | str s => exact ⟨_, rfl⟩
        | _ => simp [Py.isInstance] at hfs
      obtain ⟨r, hr⟩ := loop_ok hstep []
      rw [hr]
      exact ⟨_, rfl⟩
  | _ => simp [Py.isInstance] at hcs

/-- C17: reading any decoded RPC file gives parameters or `ParamError`. -/
theorem C17_rpc_total (yaml : Py F) : OkOrParamError (readOtyRpc yaml) := by
  unfold readOtyRpc
  rcases repack_validate rpcSchema rpcSchema_ok yaml with ⟨h1, h2⟩ | h1
  swap
  · rw [h1]; exact Or.inr rfl
  rw [h1, ok_bind]
  simp only [rpcSchema, Fields.ofList, Conforms, FieldsConform] at h2
  obtain ⟨d, rfl, h2⟩ := h2
  left
  refine loop_ok (fun a ha b => ?_) []
  obtain ⟨-, c, hc, ⟨sv, hs, sl, hsl, -⟩, ⟨rv, hr, -⟩, -⟩ := h2 a ha
  unfold addRpc
  rw [hc, getItem_dict hs, ok_bind, hsl]
  simp only [Py.items, ok_bind]
  rw [getItem_dict hr, ok_bind]
  exact ⟨_, rfl⟩

/-- Malformed files: a GCP with two coordinates, a list at the root, an exterior file with a CRS that is not
a string, give `ParamError`. -/
example : readOtyGcps (F := F) (.dict [(.str "type", .str "FeatureCollection"), (.str "features", .list [
      .dict [(.str "type", .str "Feature"), (.str "geometry", .dict [(.str "type", .str "Point"),
        (.str "coordinates", .list [.int 1, .int 2])]), (.str "properties", .dict [
        (.str "ji", .list [.int 1, .int 2]), (.str "filename", .str "a"), (.str "id", .null),
        (.str "info", .null)])]])]) = .error .paramError ∧
    readOtyRpc (F := F) (.list []) = .error .paramError ∧
    ∀ lib : CrsLib C, readOtyExt (F := F) lib (.dict [(.str "type", .str "FeatureCollection"),
      (.str "world_crs", .int 4326)]) = .error .paramError := ⟨rfl, rfl, fun _ => rfl⟩

/-! ## C18 -/

/-- The items that the reader uses without checking are of the types that it expects: the type is a string
and the sizes are sequences. -/
def CamTame (v : Py F) : Prop := ∀ d, v = .dict d →
  (∀ x, Dict.get? d (.str "type") = some x → ∃ s, x = .str s) ∧
  (∀ k ∈ ["im_size", "sensor_size"], ∀ x, Dict.get? d (.str k) = some x → ∃ l, x = .list l)

theorem parseIntParam_total (lower : String → String) {d : List (Key × Py F)} (h : CamTame (.dict d)) :
    OkOrParamError (parseIntParam lower d) := by
  obtain ⟨h1, h2⟩ := h d rfl
  unfold parseIntParam
  cases ht : Dict.get? d (.str "type") with
  | none => exact Or.inr rfl
  | some ty =>
    cases hs : Dict.get? d (.str "im_size") with
    | none => exact Or.inr rfl
    | some size =>
      cases hf : Dict.get? d (.str "focal_len") with
      | none => exact Or.inr rfl
      | some focal =>
        obtain ⟨s, rfl⟩ := h1 ty ht
        obtain ⟨l, rfl⟩ := h2 "im_size" (by simp) size hs
        simp only
        cases FrameType.parse (lower s) with
        | none => exact Or.inr rfl
        | some t =>
          simp only [Py.items]
          cases hss : Dict.get? d (.str "sensor_size") with
          | none =>
            simp only
            split
            · exact Or.inr rfl
            · exact Or.inl ⟨_, rfl⟩
          | some ss =>
            obtain ⟨l', rfl⟩ := h2 "sensor_size" (by simp) ss hss
            simp only
            split
            · exact Or.inr rfl
            · exact Or.inl ⟨_, rfl⟩

/-- C18 (part): reading a decoded interior file gives parameters or `ParamError`, if the root is a
dictionary, the cameras (under `camera` for the old format) are a dictionary with at least one item, and the
camera types are strings, sizes are lists and the name is a string.  Missing: other values, for which other
exceptions escape (`C18_int_total_fails`). -/
theorem C18_int_total_partial (lower : String → String) (d : List (Key × Py F)) (c : List (Key × Py F))
    (hc : c = d ∧ Dict.get? d (.str "camera") = none ∨ Dict.get? d (.str "camera") = some (.dict c))
    (hne : c ≠ []) (ht : CamTame (.dict c)) (hts : ∀ p ∈ c, CamTame p.2)
    (hn : ∀ x, Dict.get? c (.str "name") = some x → ∃ s, x = .str s) :
    OkOrParamError (readOtyInt lower (.dict d)) := by
  have e1 : unwrapOld (.dict d) = .ok (.dict c) := by
    unfold unwrapOld
    rcases hc with ⟨rfl, h⟩ | h
    · simp only [inCamera, Dict.has, h, Option.isSome_none]
    · simp only [inCamera, Dict.has, h, Option.isSome_some]
      exact getItem_dict h
  have main : ∀ dd : List (Key × Py F), (∀ q ∈ dd, CamTame q.2) →
      OkOrParamError (parseCams lower (.dict dd)) := by
    intro dd hdd
    unfold parseCams
    rcases repack_validate (.anyKey .str (.ty .dict)) trivial (.dict dd) with ⟨h1, h2⟩ | h1
    swap
    · rw [h1]; exact Or.inr rfl
    rw [h1, ok_bind]
    obtain ⟨d', hd', h2⟩ := h2
    simp only [Py.dict.injEq] at hd'
    subst hd'
    refine loop_okOrParam (fun a ha b => ?_) []
    unfold addInt
    have h3 := (h2 a ha).2
    have h4 := hdd a ha
    cases hv : a.2 with
    | dict cd =>
      rw [hv] at h4
      simp only
      rcases parseIntParam_total lower h4 with ⟨r, hr⟩ | hr
      · rw [hr]; exact Or.inl ⟨_, rfl⟩
      · rw [hr]; exact Or.inr rfl
    | _ => simp [hv, Conforms, Py.isInstance] at h3
  have one : ∀ k : Key, OkOrParamError (parseCams lower (.dict [(k, .dict c)])) := by
    intro k
    refine main _ fun q hq => ?_
    simp only [List.mem_singleton] at hq
    subst hq
    exact ht
  unfold readOtyInt
  rw [e1, ok_bind]
  cases c with
  | nil => exact absurd rfl hne
  | cons p c =>
    unfold unflatten
    simp only [firstValue]
    by_cases hd : isDict p.2 = true
    · simp only [hd, if_true, ok_bind]
      exact main _ hts
    · rw [if_neg hd]
      unfold flatName
      cases hname : Dict.get? (p :: c) (.str "name") with
      | none =>
        simp only [hname, ok_bind]
        exact one _
      | some x =>
        obtain ⟨s, rfl⟩ := hn x hname
        simp only [hname, keyOf, ok_bind]
        exact one _

/-- C18: other exceptions escape from the interior reader: for an empty file (`null`), an empty
dictionary, a list, a type that is not a string, an image size or sensor size that is not a sequence, and a
name that is a list. -/
theorem C18_int_total_fails (lower : String → String) :
    readOtyInt (F := F) lower .null = .error .typeError ∧
    readOtyInt (F := F) lower (.dict []) = .error .stopIteration ∧
    readOtyInt (F := F) lower (.list []) = .error .attributeError ∧
    readOtyInt (F := F) lower (.dict [(.str "c", .dict [(.str "type", .int 1), (.str "im_size", .list []),
      (.str "focal_len", .int 1)])]) = .error .attributeError ∧
    (lower "brown" = "brown" →
      readOtyInt (F := F) lower (.dict [(.str "c", .dict [(.str "type", .str "brown"), (.str "im_size", .int 5),
        (.str "focal_len", .int 1)])]) = .error .typeError ∧
      readOtyInt (F := F) lower (.dict [(.str "c", .dict [(.str "type", .str "brown"),
        (.str "im_size", .list [.int 5, .int 6]), (.str "focal_len", .int 1), (.str "sensor_size", .null)])]) =
        .error .typeError) ∧
    readOtyInt (F := F) lower (.dict [(.str "name", .list []), (.str "type", .str "brown")]) =
      .error .typeError := by
  refine ⟨rfl, rfl, rfl, rfl, fun h => ⟨?_, ?_⟩, rfl⟩
  · simp [readOtyInt, unwrapOld, unflatten, parseCams, inCamera, Dict.has, Dict.get?, ok_bind, firstValue, isDict, validate, forEach, andThen,
      Key.isInstance, Py.isInstance, repack, loop, addInt, parseIntParam, h, FrameType.parse, Py.items]
  · simp [readOtyInt, unwrapOld, unflatten, parseCams, inCamera, Dict.has, Dict.get?, ok_bind, firstValue, isDict, validate, forEach, andThen,
      Key.isInstance, Py.isInstance, repack, loop, addInt, parseIntParam, h, FrameType.parse, Py.items]

/-- The hypotheses of the part that holds are met by an old format file with an unknown parameter, which
gives `ParamError`. -/
example : readOtyInt (F := F) id (.dict [(.str "camera", .dict [(.str "type", .str "pinhole"),
    (.str "im_size", .list [.int 3, .int 2]), (.str "focal_len", .int 1), (.str "k9", .int 1)])]) =
    .error .paramError := rfl

end Verif.ParamIO
