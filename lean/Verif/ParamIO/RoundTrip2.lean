import Verif.ParamIO.RoundTrip

/-!
# C20 and C22: interior and RPC parameter files that are written can be read back
-/

set_option autoImplicit false

namespace Verif.ParamIO

variable {F : Type}

/-- A loop that sets one new key per item builds the dictionary of the items in order. -/
theorem loop_set {α β : Type} {f : Dict Key β → α → Res (Dict Key β)} {key : α → Key} {val : α → β}
    {l : List α} (hf : ∀ a ∈ l, ∀ d, f d a = .ok (d.set (key a) (val a))) (hnd : (l.map key).Nodup)
    (acc : Dict Key β) (hacc : ∀ a ∈ l, key a ∉ acc.map Prod.fst) :
    loop f acc l = .ok (acc ++ l.map fun a => (key a, val a)) := by
  induction l generalizing acc with
  | nil => simp [loop]
  | cons a l ih =>
    rw [List.map_cons, List.nodup_cons] at hnd
    rw [loop, hf a (List.mem_cons_self ..)]
    simp only
    rw [Dict.set_of_not_mem (hacc a (List.mem_cons_self ..)),
      ih (fun b hb => hf b (List.mem_cons_of_mem _ hb)) hnd.2]
    · simp
    · intro b hb
      simp only [List.map_append, List.map_cons, List.map_nil, List.mem_append, List.mem_singleton, not_or]
      refine ⟨hacc b (List.mem_cons_of_mem _ hb), fun e => hnd.1 ?_⟩
      exact e ▸ List.mem_map_of_mem hb

theorem get?_strKeys (e : Dict String (Py F)) (k : String) :
    Dict.get? (e.map fun q => (Key.str q.1, q.2)) (.str k) = Dict.get? e k := by
  induction e with
  | nil => rfl
  | cons p e ih =>
    rw [List.map_cons, Dict.get?_cons, Dict.get?_cons, ih]
    simp only [Key.str.injEq]

theorem get?_filterKey {κ α : Type} [DecidableEq κ] (P : κ → Bool) (d : Dict κ α) (k : κ) :
    Dict.get? (d.filter fun q => P q.1) k = if P k then Dict.get? d k else none := by
  induction d with
  | nil => simp [Dict.get?]
  | cons p d ih =>
    rw [List.filter_cons, Dict.get?_cons]
    by_cases h : p.1 = k
    · subst h
      by_cases hp : P p.1 = true
      · simp [hp, Dict.get?_cons]
      · simp [hp, ih]
    · by_cases hp : P p.1 = true
      · simp only [hp, if_true, Dict.get?_cons, if_neg h, ih]
      · simp only [hp, if_neg h]; exact ih

/-- Two dictionaries are equal in python: the same values under the same keys. -/
def DictEq {κ α : Type} [DecidableEq κ] (d e : Dict κ α) : Prop := ∀ k, Dict.get? d k = Dict.get? e k

/-! ## C22 -/

/-- The part of the RPC file schema for the `rpc` item. -/
def rpcCoeffSchema : Schema :=
  let coeffs : Schema := .list (.ofList (List.replicate 20 (.ty .float)))
  .fields (.ofList [
      ("height_off", .ty .float), ("height_scale", .ty .float), ("lat_off", .ty .float),
      ("lat_scale", .ty .float), ("line_den_coeff", coeffs), ("line_num_coeff", coeffs),
      ("line_off", numTys), ("line_scale", numTys), ("long_off", .ty .float), ("long_scale", .ty .float),
      ("samp_den_coeff", coeffs), ("samp_num_coeff", coeffs), ("samp_off", numTys),
      ("samp_scale", numTys)])

/-- RPC parameters of an image, as `read_im_rpc_param` makes them: a camera type, an image size of two numbers
and RPC coefficients with the right types; in any order and nothing else. -/
structure RpcWF (p : Dict String (Py F)) : Prop where
  ok : Dict.Ok p
  cam_type : Dict.get? p "cam_type" = some (.str "rpc")
  im_size : ∃ w h, Dict.get? p "im_size" = some (.tuple [w, h]) ∧ IsNum w ∧ IsNum h
  rpc : ∃ r, Dict.get? p "rpc" = some r ∧ Conforms false rpcCoeffSchema r
  keys : ∀ k ∈ p.map Prod.fst, k ∈ ["cam_type", "im_size", "rpc"]

theorem conforms_pair {w h : Py F} (hw : IsNum w) (hh : IsNum h) :
    Conforms false (.list (.ofList [.tys [.float, .int], .tys [.float, .int]])) (.list [w, h]) := by
  simp only [Schemas.ofList, Conforms]
  refine ⟨_, rfl, w, [h], rfl, rfl, ?_, ?_, trivial⟩
  · rcases hw with h | h
    · exact ⟨.int, by simp, h⟩
    · exact ⟨.float, by simp, h⟩
  · rcases hh with h | h
    · exact ⟨.int, by simp, h⟩
    · exact ⟨.float, by simp, h⟩

/-- C22: reading a file that `write_rpc_param` wrote gives back the images in order, each with an equal
dictionary of parameters. -/
theorem C22_rpc_round_trip (d : Dict String (Dict String (Py F))) (hd : Dict.Ok d) (hw : ∀ p ∈ d, RpcWF p.2) :
    ∃ d', readOtyRpc (writeRpc d) = .ok d' ∧
      List.Forall₂ (fun a b => b.1 = Key.str a.1 ∧ DictEq a.2 b.2) d d' := by
  let item : String × Dict String (Py F) → Py F := fun p =>
    strDict ((p.2.filter fun q => q.1 ≠ "cam_type").map fun q => (q.1, dumpVal q.2))
  have hget : ∀ p : String × Dict String (Py F), ∀ k x, k ≠ "cam_type" → Dict.get? p.2 k = some x →
      Py.getItem (item p) k = .ok (dumpVal x) := by
    intro p k x hk hx
    refine getItem_dict ?_
    rw [get?_strKeys, Dict.get?_map,
      get?_filterKey (fun k => decide (k ≠ "cam_type"))]
    simp [hk, hx]
  have hitem : ∀ p : String × Dict String (Py F), ∃ c, item p = .dict c := fun p => ⟨_, rfl⟩
  have hcf : Conforms false rpcSchema (writeRpc d) := by
    simp only [rpcSchema, Conforms]
    refine ⟨_, rfl, ?_⟩
    intro p hp
    simp only [List.map_map, List.mem_map] at hp
    obtain ⟨q, hq, rfl⟩ := hp
    have h := hw q hq
    obtain ⟨w, hh, hs, hw1, hh1⟩ := h.im_size
    obtain ⟨r, hr, hrc⟩ := h.rpc
    refine ⟨rfl, ?_⟩
    simp only [Fields.ofList, Conforms, FieldsConform]
    refine ⟨_, rfl, ⟨.list [w, hh], ?_, conforms_pair hw1 hh1⟩, ⟨r, ?_, hrc⟩, trivial⟩
    · rw [get?_strKeys, Dict.get?_map,
        get?_filterKey (fun k => decide (k ≠ "cam_type")), hs]
      rfl
    · rw [get?_strKeys, Dict.get?_map, get?_filterKey (fun k => decide (k ≠ "cam_type")), hr]
      obtain ⟨c, rfl, -⟩ := hrc
      rfl
  let size : String × Dict String (Py F) → Py F := fun p => (Dict.get? p.2 "im_size").getD .null
  let rpc : String × Dict String (Py F) → Py F := fun p => (Dict.get? p.2 "rpc").getD .null
  let out : String × Dict String (Py F) → Dict String (Py F) := fun p =>
    [("cam_type", .str "rpc"), ("im_size", size p), ("rpc", rpc p)]
  refine ⟨d.map fun p => (.str p.1, out p), ?_, ?_⟩
  · unfold readOtyRpc
    rw [(validate_iff rpcSchema rpcSchema_ok _).2 hcf]
    have hl : loop addRpc [] (d.map fun p => (Key.str p.1, item p)) =
        .ok ([] ++ (d.map fun p => (Key.str p.1, out p))) := by
      have h1 : ∀ p ∈ d, ∀ acc, addRpc acc (Key.str p.1, item p) = .ok (acc.set (.str p.1) (out p)) := by
        intro p hp acc
        have h := hw p hp
        obtain ⟨w, hh, hs, hw1, hh1⟩ := h.im_size
        obtain ⟨r, hr, c, hrc, -⟩ := h.rpc
        unfold addRpc
        rw [hget p "im_size" _ (by decide) hs, ok_bind]
        simp only [dumpVal, Py.items, ok_bind]
        rw [hget p "rpc" _ (by decide) hr, ok_bind, hrc]
        simp only [out, size, rpc, hs, hr, hrc, Option.getD_some, dumpVal]
      have h2 : ∀ (l : Dict String (Dict String (Py F))) acc, loop addRpc acc (l.map fun p => (Key.str p.1, item p)) =
          loop (fun acc p => addRpc acc (Key.str p.1, item p)) acc l := by
        intro l
        induction l with
        | nil => exact fun acc => rfl
        | cons p l ih =>
          intro acc
          simp only [List.map_cons, loop]
          cases addRpc acc (Key.str p.1, item p) with
          | error e => rfl
          | ok acc' => exact ih acc'
      rw [h2]
      refine loop_set (key := fun p => Key.str p.1) (val := out) h1 ?_ [] (by simp)
      have : (d.map fun p => Key.str p.1) = (d.map Prod.fst).map Key.str := by simp
      rw [this]
      exact hd.map (fun a b h => by simpa using h)
    have he : writeRpc d = .dict (d.map fun p => (Key.str p.1, item p)) := by
      simp only [writeRpc, strDict, List.map_map, item, Function.comp_def]
    rw [he]
    simp only [List.nil_append] at hl
    simp only [repack, ok_bind]
    exact hl
  · rw [List.forall₂_map_right_iff, List.forall₂_same]
    intro p hp
    refine ⟨rfl, fun k => ?_⟩
    have h := hw p hp
    obtain ⟨w, hh, hs, hw1, hh1⟩ := h.im_size
    obtain ⟨r, hr, -⟩ := h.rpc
    simp only [out, size, rpc, hs, hr, Option.getD_some, Dict.get?_cons, Dict.get?_nil]
    by_cases h1 : "cam_type" = k
    · rw [if_pos h1, ← h1, h.cam_type]
    rw [if_neg h1]
    by_cases h2 : "im_size" = k
    · rw [if_pos h2, ← h2, hs]
    rw [if_neg h2]
    by_cases h3 : "rpc" = k
    · rw [if_pos h3, ← h3, hr]
    rw [if_neg h3, Dict.get?_none]
    intro hk
    have := h.keys k hk
    simp only [List.mem_cons, List.not_mem_nil, or_false] at this
    rcases this with rfl | rfl | rfl
    · exact h1 rfl
    · exact h2 rfl
    · exact h3 rfl

/-- Coefficients for the examples. -/
def demoRpc (x : F) (off : Py F) : Py F :=
  let c : Py F := .list (List.replicate 20 (.float x))
  strDict [("height_off", .float x), ("height_scale", .float x), ("lat_off", off), ("lat_scale", .float x),
    ("line_den_coeff", c), ("line_num_coeff", c), ("line_off", .int 5), ("line_scale", .float x),
    ("long_off", .float x), ("long_scale", .float x), ("samp_den_coeff", c), ("samp_num_coeff", c),
    ("samp_off", .int 5), ("samp_scale", .float x), ("err_bias", .null)]

example (x : F) : RpcWF [("im_size", .tuple [.int 3, .int 4]), ("rpc", demoRpc x (.float x)),
    ("cam_type", .str "rpc")] where
  ok := by simp [Dict.Ok]
  cam_type := rfl
  im_size := ⟨_, _, rfl, Or.inl rfl, Or.inl rfl⟩
  rpc := ⟨_, rfl, (validate_iff _ (by
    simp [rpcCoeffSchema, numTys, Schema.Ok, Fields.Ok, Schemas.Ok, Fields.ofList, Schemas.ofList,
      List.replicate]) _).1 rfl⟩
  keys := by simp

/-- C22: an offset given as a python integer is written, but refused when read. -/
theorem C22_integer_offset_fails (x : F) :
    readOtyRpc (writeRpc [("a.tif", [("cam_type", .str "rpc"), ("im_size", .tuple [.int 3, .int 4]),
      ("rpc", demoRpc x (.int 30))])]) = .error .paramError := rfl

/-! ## C20 -/

/-- The distortion coefficients that docs/file_formats/oty_int.rst:44-61 lists for a camera type. -/
def coefficients : FrameType → List String
  | .pinhole => []
  | .brown => ["k1", "k2", "p1", "p2", "k3"]
  | .fisheye => ["k1", "k2", "k3", "k4"]
  | .opencv => ["k1", "k2", "p1", "p2", "k3", "k4", "k5", "k6", "s1", "s2", "s3", "s4", "tx", "ty"]

theorem optKeys_iff (t : FrameType) (k : String) :
    k ∈ t.optKeys ↔ k ∈ ["sensor_size", "cx", "cy"] ∨ k ∈ coefficients t := by
  cases t <;> simp only [FrameType.optKeys, coefficients, List.mem_cons, List.not_mem_nil, or_false] <;> tauto

/-- Interior parameters of a camera as the readers make them: a frame camera type, an image size tuple, a
focal length that is not a list, an optional sensor size tuple, and otherwise only parameters of the camera
type that are not tuples. -/
structure IntWF (lower : String → String) (p : Dict String (Py F)) (t : FrameType) : Prop where
  ok : Dict.Ok p
  cam_type : Dict.get? p "cam_type" = some (.str t.name)
  lower : lower t.name = t.name
  im_size : ∃ l, Dict.get? p "im_size" = some (.tuple l)
  focal_len : ∃ f, Dict.get? p "focal_len" = some f ∧ ∀ l, f ≠ .list l
  sensor_size : Dict.get? p "sensor_size" = none ∨ ∃ l, Dict.get? p "sensor_size" = some (.tuple l)
  rest : ∀ k v, (k, v) ∈ p → k ∉ ["cam_type", "im_size", "focal_len", "sensor_size"] →
    (k ∈ ["cx", "cy"] ∨ k ∈ coefficients t) ∧ ∀ l, v ≠ .tuple l

theorem IntWF.opt {lower : String → String} {p : Dict String (Py F)} {t : FrameType} (h : IntWF lower p t)
    (k : String) (v : Py F) (hk : (k, v) ∈ p) (hn : k ∉ ["cam_type", "im_size", "focal_len", "sensor_size"]) :
    k ∈ t.optKeys ∧ ∀ l, v ≠ .tuple l := by
  obtain ⟨h1, h2⟩ := h.rest k v hk hn
  refine ⟨(optKeys_iff t k).2 ?_, h2⟩
  rcases h1 with h1 | h1
  · left; simp only [List.mem_cons, List.not_mem_nil, or_false] at h1 ⊢; tauto
  · exact Or.inr h1

theorem dumpVal_tuple (l : List (Py F)) : dumpVal (.tuple l) = .list l := rfl

theorem items_list (l : List (Py F)) : Py.items (.list l) = .ok l := rfl

theorem parse_name (t : FrameType) : FrameType.parse t.name = some t := by cases t <;> rfl

theorem optKeys_ne (t : FrameType) {k : String} (h : k ∈ t.optKeys) : k ≠ "type" ∧ k ≠ "name" := by
  constructor <;> rintro rfl <;> cases t <;> revert h <;> decide

theorem yamlIntParam_eq {p : Dict String (Py F)} {v : Py F} (hp : Dict.Ok p)
    (h : Dict.get? p "cam_type" = some v) (ht : Dict.get? p "type" = none) :
    yamlIntParam p = ("type", v) :: p.filter fun q => q.1 ≠ "cam_type" := by
  unfold yamlIntParam
  rw [h]
  simp only
  rw [Dict.update_append]
  · rfl
  · unfold Dict.Ok at *
    rw [List.map_append, List.map_cons, List.map_nil, List.singleton_append, List.nodup_cons]
    constructor
    · intro hm
      rw [Dict.get?_none] at ht
      obtain ⟨q, hq, he⟩ := List.mem_map.1 hm
      have he' : q.1 = "type" := he
      exact ht (he' ▸ List.mem_map_of_mem (List.mem_filter.1 hq).1)
    · exact hp.sublist (List.Sublist.map _ List.filter_sublist)

theorem parse_written {lower : String → String} {p : Dict String (Py F)} {t : FrameType}
    (h : IntWF lower p t) : ∃ p', parseIntParam lower
      (((yamlIntParam p).map fun q => (q.1, dumpVal q.2)).map fun q => (Key.str q.1, q.2)) = .ok p' ∧
        DictEq p p' := by
  have htype : Dict.get? p "type" = none := by
    rw [Dict.get?_none]
    intro hm
    obtain ⟨q, hq, he⟩ := List.mem_map.1 hm
    have := h.opt q.1 q.2 hq (by rw [he]; decide)
    exact (optKeys_ne t this.1).1 he
  have hname : Dict.get? p "name" = none := by
    rw [Dict.get?_none]
    intro hm
    obtain ⟨q, hq, he⟩ := List.mem_map.1 hm
    have := h.opt q.1 q.2 hq (by rw [he]; decide)
    exact (optKeys_ne t this.1).2 he
  obtain ⟨sl, hs⟩ := h.im_size
  obtain ⟨f, hf, hfl⟩ := h.focal_len
  generalize hy : ((yamlIntParam p).map fun q => (q.1, dumpVal q.2)) = y
  have hgy : ∀ k, Dict.get? y k = if k = "type" then some (.str t.name) else if k = "cam_type" then none
      else (Dict.get? p k).map dumpVal := by
    intro k
    rw [← hy, Dict.get?_map, yamlIntParam_eq h.ok h.cam_type htype, Dict.get?_cons,
      get?_filterKey (fun k => decide (k ≠ "cam_type"))]
    simp only [decide_not, Bool.not_eq_eq_eq_not, Bool.not_true, decide_eq_false_iff_not]
    by_cases h1 : k = "type"
    · simp [h1, dumpVal]
    · rw [if_neg (fun e => h1 e.symm), if_neg h1]
      by_cases h2 : k = "cam_type" <;> simp [h2]
  have hoky : Dict.Ok y := by
    unfold Dict.Ok
    rw [← hy, List.map_map]
    have : (Prod.fst ∘ fun q : String × Py F => (q.1, dumpVal q.2)) = Prod.fst := rfl
    rw [this]
    unfold yamlIntParam
    refine Dict.Ok.update ?_ _
    rw [h.cam_type]
    simp [Dict.Ok]
  have hmy : ∀ q ∈ y, q.1 = "type" ∨ ∃ v, (q.1, v) ∈ p ∧ q.1 ≠ "cam_type" := by
    intro q hq
    have h1 := Dict.get?_of_mem hoky (k := q.1) (v := q.2) hq
    rw [hgy] at h1
    split_ifs at h1 with h2 h3
    · exact Or.inl h2
    · right
      obtain ⟨v, hv, -⟩ := Option.map_eq_some_iff.1 h1
      exact ⟨v, Dict.mem_of_get? hv, h3⟩
  unfold parseIntParam
  simp only [get?_strKeys]
  rw [hgy "type", hgy "im_size", hgy "focal_len", hgy "sensor_size"]
  simp only [hs, hf, Option.map_some, dumpVal_tuple, if_true]
  rw [if_neg (show ¬ ("im_size" : String) = "type" by decide), if_neg (show ¬ ("im_size" : String) = "cam_type" by decide),
    if_neg (show ¬ ("focal_len" : String) = "type" by decide), if_neg (show ¬ ("focal_len" : String) = "cam_type" by decide),
    if_neg (show ¬ ("sensor_size" : String) = "type" by decide), if_neg (show ¬ ("sensor_size" : String) = "cam_type" by decide)]
  simp only [h.lower, parse_name, items_list]
  have hfocal : tupleIfList (dumpVal f) = f := by
    cases f with
    | list l => exact absurd rfl (hfl l)
    | _ => rfl
  rw [hfocal]
  -- the remaining items
  have hrest : ((y.map fun q => (Key.str q.1, q.2)).filter fun q =>
      decide (q.1 ∉ [Key.str "type", .str "im_size", .str "name", .str "focal_len", .str "sensor_size"])) =
      (y.filter fun q => decide (q.1 ∉ ["type", "im_size", "name", "focal_len", "sensor_size"])).map
        fun q => (Key.str q.1, q.2) := by
    rw [List.filter_map]
    congr 1
    refine List.filter_congr fun q _ => ?_
    simp
  rw [hrest]
  have hfm : ((y.filter fun q => decide (q.1 ∉ ["type", "im_size", "name", "focal_len", "sensor_size"])).map
        fun q => (Key.str q.1, q.2)).filterMap (fun q => q.1.str?.map fun k => (k, q.2)) =
      y.filter fun q => decide (q.1 ∉ ["type", "im_size", "name", "focal_len", "sensor_size"]) := by
    rw [List.filterMap_map]
    simp [Function.comp_def, Key.str?]
  rw [hfm]
  have hany : (((y.filter fun q => decide (q.1 ∉ ["type", "im_size", "name", "focal_len", "sensor_size"])).map
        fun q => (Key.str q.1, q.2)).any fun q => !q.1.str?.any t.optKeys.contains) = false := by
    rw [List.any_eq_false]
    intro q hq
    obtain ⟨r, hr, rfl⟩ := List.mem_map.1 hq
    obtain ⟨hr1, hr2⟩ := List.mem_filter.1 hr
    have hr3 : r.1 ∉ ["type", "im_size", "name", "focal_len", "sensor_size"] := by simpa using hr2
    simp only [List.mem_cons, List.not_mem_nil, or_false, not_or] at hr3
    rcases hmy r hr1 with h1 | ⟨v, hv, hc⟩
    · exact absurd h1 hr3.1
    · have := (h.opt r.1 v hv (by
        simp only [List.mem_cons, List.not_mem_nil, or_false, not_or]
        exact ⟨hc, hr3.2.1, hr3.2.2.2.1, hr3.2.2.2.2⟩)).1
      simpa [Key.str?] using this
  rw [hany]
  simp only [Bool.false_eq_true, if_false]
  have hokr : Dict.Ok (y.filter fun q => decide (q.1 ∉ ["type", "im_size", "name", "focal_len", "sensor_size"])) :=
    hoky.sublist (List.Sublist.map _ List.filter_sublist)
  -- values
  have hval : ∀ P : Dict String (Py F),
      Dict.get? P "cam_type" = some (.str t.name) → Dict.get? P "im_size" = some (.tuple sl) →
      Dict.get? P "focal_len" = some f → Dict.get? P "sensor_size" = Dict.get? p "sensor_size" →
      (∀ k, k ∉ ["cam_type", "im_size", "focal_len", "sensor_size"] → Dict.get? P k = none) →
      DictEq p (Dict.update P
        (y.filter fun q => decide (q.1 ∉ ["type", "im_size", "name", "focal_len", "sensor_size"]))) := by
    intro P h1 h2 h3 h4 h5 k
    rw [Dict.get?_update _ _ hokr,
      get?_filterKey (fun k => decide (k ∉ ["type", "im_size", "name", "focal_len", "sensor_size"])), hgy]
    by_cases hk1 : k = "cam_type"
    · subst hk1
      simp [h1, h.cam_type]
    by_cases hk2 : k = "im_size"
    · subst hk2
      simp [h2, hs]
    by_cases hk3 : k = "focal_len"
    · subst hk3
      simp [h3, hf]
    by_cases hk4 : k = "sensor_size"
    · subst hk4
      simp [h4]
    have hk : k ∉ ["cam_type", "im_size", "focal_len", "sensor_size"] := by simp [hk1, hk2, hk3, hk4]
    rw [h5 k hk]
    by_cases hk5 : k = "type"
    · subst hk5
      simp [htype]
    by_cases hk6 : k = "name"
    · subst hk6
      simp [hname]
    simp only [List.mem_cons, hk5, hk2, hk6, hk3, hk4, List.not_mem_nil, or_false, not_false_eq_true, decide_true,
      if_true, if_false, hk1, Option.or_none]
    cases hv : Dict.get? p k with
    | none => rfl
    | some v =>
      have := (h.rest k v (Dict.mem_of_get? hv) hk).2
      cases v with
      | tuple l => exact absurd rfl (this l)
      | _ => rfl
  rcases h.sensor_size with hss | ⟨l, hss⟩
  · rw [hss]
    simp only [Option.map_none]
    refine ⟨_, rfl, hval _ rfl rfl rfl ?_ ?_⟩
    · rw [hss]; rfl
    · intro k hk
      simp only [List.mem_cons, List.not_mem_nil, or_false, not_or] at hk
      simp only [Dict.get?_cons, Dict.get?_nil]
      rw [if_neg (fun e => hk.1 e.symm), if_neg (fun e => hk.2.1 e.symm), if_neg (fun e => hk.2.2.1 e.symm)]
  · rw [hss]
    simp only [Option.map_some, dumpVal_tuple, items_list]
    refine ⟨_, rfl, hval _ rfl rfl rfl ?_ ?_⟩
    · rw [hss]; rfl
    · intro k hk
      simp only [List.mem_cons, List.not_mem_nil, or_false, not_or] at hk
      rw [Dict.get?_set, if_neg (fun e => hk.2.2.2 e.symm)]
      simp only [Dict.get?_cons, Dict.get?_nil]
      rw [if_neg (fun e => hk.1 e.symm), if_neg (fun e => hk.2.1 e.symm), if_neg (fun e => hk.2.2.1 e.symm)]

/-- C20 (part): reading a file that `write_int_param` wrote gives back the cameras in order, each with an
equal dictionary of parameters, if there is a camera, no camera has the ID `camera`, and the parameters are as
the readers make them.  Missing: see `C20_fails`. -/
theorem C20_int_round_trip_partial (lower : String → String) (d : Dict String (Dict String (Py F)))
    (hd : Dict.Ok d) (hne : d ≠ []) (hcam : "camera" ∉ d.map Prod.fst)
    (hw : ∀ p ∈ d, ∃ t, IntWF lower p.2 t) :
    ∃ d', readOtyInt lower (writeInt d) = .ok d' ∧
      List.Forall₂ (fun a b => b.1 = Key.str a.1 ∧ DictEq a.2 b.2) d d' := by
  let item : String × Dict String (Py F) → List (Key × Py F) := fun p =>
    ((yamlIntParam p.2).map fun q => (q.1, dumpVal q.2)).map fun q => (Key.str q.1, q.2)
  have he : writeInt d = .dict (d.map fun p => (Key.str p.1, .dict (item p))) := by
    simp only [writeInt, strDict, List.map_map, item, Function.comp_def]
  have hpar : ∀ p : String × Dict String (Py F), ∃ p', p ∈ d → parseIntParam lower (item p) = .ok p' ∧ DictEq p.2 p' := by
    intro p
    by_cases hp : p ∈ d
    · obtain ⟨t, ht⟩ := hw p hp
      obtain ⟨p', h⟩ := parse_written ht
      exact ⟨p', fun _ => h⟩
    · exact ⟨[], fun h => absurd h hp⟩
  choose out hout using hpar
  have hget : Dict.get? (d.map fun p => (Key.str p.1, Py.dict (item p))) (.str "camera") = none := by
    rw [Dict.get?_none, List.map_map]
    intro hm
    obtain ⟨q, hq, h1⟩ := List.mem_map.1 hm
    simp only [Function.comp_apply, Key.str.injEq] at h1
    exact hcam (h1 ▸ List.mem_map_of_mem hq)
  refine ⟨d.map fun p => (.str p.1, out p), ?_, ?_⟩
  · unfold readOtyInt
    have h1 : unwrapOld (writeInt d) = .ok (writeInt d) := by
      rw [he]
      unfold unwrapOld
      simp only [inCamera, Dict.has, hget, Option.isSome_none]
    rw [h1, ok_bind]
    have h2 : unflatten (writeInt d) = .ok (writeInt d) := by
      rw [he]
      cases d with
      | nil => exact absurd rfl hne
      | cons p d => rfl
    rw [h2, ok_bind, he]
    unfold parseCams
    have h3 : validate (.anyKey .str (.ty .dict)) (.dict (d.map fun p => (Key.str p.1, Py.dict (item p)))) = .ok () := by
      refine (validate_iff (.anyKey .str (.ty .dict)) trivial _).2 ⟨_, rfl, ?_⟩
      intro q hq
      obtain ⟨p, hp, rfl⟩ := List.mem_map.1 hq
      exact ⟨rfl, rfl⟩
    rw [h3]
    have h4 : ∀ p ∈ d, ∀ acc, addInt lower acc (Key.str p.1, Py.dict (item p)) = .ok (acc.set (.str p.1) (out p)) := by
      intro p hp acc
      unfold addInt
      simp only [(hout p hp).1]
    have h5 : ∀ (l : Dict String (Dict String (Py F))) acc,
        loop (addInt lower) acc (l.map fun p => (Key.str p.1, Py.dict (item p))) =
        loop (fun acc p => addInt lower acc (Key.str p.1, Py.dict (item p))) acc l := by
      intro l
      induction l with
      | nil => exact fun acc => rfl
      | cons p l ih =>
        intro acc
        simp only [List.map_cons, loop]
        cases addInt lower acc (Key.str p.1, Py.dict (item p)) with
        | error e => rfl
        | ok acc' => exact ih acc'
    simp only [repack, ok_bind]
    rw [h5]
    refine (loop_set (key := fun p : String × Dict String (Py F) => Key.str p.1) (val := out) h4 ?_ [] (by simp)).trans (by simp)
    have : (d.map fun p => Key.str p.1) = (d.map Prod.fst).map Key.str := by simp
    rw [this]
    exact hd.map (fun a b h => by simpa using h)
  · rw [List.forall₂_map_right_iff, List.forall₂_same]
    exact fun p hp => ⟨rfl, (hout p hp).2⟩

/-- The hypotheses are met by a camera as `read_osfm_int_param` makes it. -/
example (x : F) : IntWF id [("cam_type", .str "brown"), ("im_size", .tuple [.int 30, .int 20]),
    ("focal_len", .tuple [.float x, .float x]), ("sensor_size", .tuple [.float x, .int 1]), ("cx", .float x),
    ("k1", .float x)] .brown where
  ok := by simp [Dict.Ok]
  cam_type := rfl
  lower := rfl
  im_size := ⟨_, rfl⟩
  focal_len := ⟨_, rfl, by simp⟩
  sensor_size := Or.inr ⟨_, rfl⟩
  rest := by
    intro k v h h1
    simp only [List.mem_cons, Prod.mk.injEq, List.not_mem_nil, or_false] at h h1
    rcases h with ⟨rfl, rfl⟩ | ⟨rfl, rfl⟩ | ⟨rfl, rfl⟩ | ⟨rfl, rfl⟩ | ⟨rfl, rfl⟩ | ⟨rfl, rfl⟩ <;>
      simp [coefficients] at h1 ⊢

/-- A well formed camera. -/
def demoCam (x : F) : Dict String (Py F) :=
  [("cam_type", .str "pinhole"), ("im_size", .tuple [.int 30, .int 20]), ("focal_len", .float x)]

/-- C20: a camera with the ID `camera` changes its ID and hides the other cameras; no cameras cannot be read;
`sensor_size=None` cannot be read. -/
theorem C20_fails (x : F) :
    readOtyInt id (writeInt [("a", demoCam x), ("camera", demoCam x)]) =
      .ok [(.str "unknown", demoCam x)] ∧
    readOtyInt (F := F) id (writeInt []) = .error .stopIteration ∧
    readOtyInt id (writeInt [("a", demoCam x ++ [("sensor_size", .null)])]) = .error .typeError :=
  ⟨rfl, rfl, rfl⟩

end Verif.ParamIO
