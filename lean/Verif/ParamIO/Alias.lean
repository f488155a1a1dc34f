import Verif.ParamIO.IntRead

/-!
# C94: cameras that share their parameters in an interior parameter file

A YAML file can give a node a name (`&a`) and use it again (`*a`).  `yaml.safe_load` returns one object for all
uses.  `parse_yaml_param` takes items out of the dictionary of a camera while it reads it, so what it does to
one camera is seen by every other camera that uses the same dictionary.

`Oty.lean` models the reader on values (`parseIntParam`, `readOtyInt`).  Here the dictionaries of the cameras are
objects in a store, and the statements of the reader change them in order.
-/

set_option autoImplicit false

namespace Verif.ParamIO

variable {F : Type}

/-! ## Model -/

/-- The dictionaries that `yaml.safe_load` made, by their identity. -/
abbrev Store (F : Type) := ℕ → Dict Key (Py F)

/-- A nested file after `yaml.safe_load` (orthority/param_io.py:218): the camera ids with the identities of their
dictionaries.  Not modelled: dictionaries inside the dictionary of a camera. -/
abbrev Root := List (Key × ℕ)

/-- `d.pop(k)`: the value, if there is one, and what is left. -/
def popItem (d : Dict Key (Py F)) (k : String) : Option (Py F) × Dict Key (Py F) :=
  (d.get? (.str k), d.erase (.str k))

/-- orthority/param_io.py:246-251: the remaining items of the dictionary `d` of a camera of type `t`. -/
def finishParam (t : FrameType) (p : Dict String (Py F)) (d : Dict Key (Py F)) :
    Res (Dict String (Py F)) × Dict Key (Py F) :=
  if d.any fun q => !q.1.str?.any t.optKeys.contains then (.error .paramError, d)
  else (.ok (p.update (d.filterMap fun q => q.1.str?.map fun k => (k, q.2))), d)

/-- orthority/param_io.py:243-244: `sensor_size`. -/
def popSensor (t : FrameType) (p : Dict String (Py F)) (d : Dict Key (Py F)) :
    Res (Dict String (Py F)) × Dict Key (Py F) :=
  if d.has (.str "sensor_size") then
    let (v, d) := popItem d "sensor_size"
    match v with
    | none => (.error .keyError, d)
    | some v => match v.items with
      | .error e => (.error e, d)
      | .ok l => finishParam t (p.set "sensor_size" (.tuple l)) d
  else finishParam t p d

/-- orthority/param_io.py:237-242: `name` and `focal_len`. -/
def popFocal (t : FrameType) (p : Dict String (Py F)) (d : Dict Key (Py F)) :
    Res (Dict String (Py F)) × Dict Key (Py F) :=
  let (_, d) := popItem d "name"
  let (v, d) := popItem d "focal_len"
  match v with
  | none => (.error .keyError, d)
  | some v => popSensor t (p.set "focal_len" (tupleIfList v)) d

/-- orthority/param_io.py:235: `im_size`. -/
def popSize (t : FrameType) (p : Dict String (Py F)) (d : Dict Key (Py F)) :
    Res (Dict String (Py F)) × Dict Key (Py F) :=
  let (v, d) := popItem d "im_size"
  match v with
  | none => (.error .keyError, d)
  | some v => match v.items with
    | .error e => (.error e, d)
    | .ok l => popFocal t (p.set "im_size" (.tuple l)) d

/-- orthority/param_io.py:222-251 `parse_yaml_param`: what it returns or raises, and the dictionary after it. -/
def parseStore (lower : String → String) (d : Dict Key (Py F)) :
    Res (Dict String (Py F)) × Dict Key (Py F) :=
  if ["type", "im_size", "focal_len"].all fun k => d.has (.str k) then
    let (v, d) := popItem d "type"
    match v with
    | some (.str s) => match FrameType.parse (lower s) with
      | none => (.error .paramError, d)
      | some t => popSize t [("cam_type", .str t.name)] d
    | _ => (.error .attributeError, d)
  else (.error .paramError, d)

/-- orthority/param_io.py:274-281: the loop over cameras, with the store as it goes. -/
def readCams (lower : String → String) :
    Dict Key (Dict String (Py F)) → Store F → Root → Res (Dict Key (Dict String (Py F)))
  | acc, _, [] => .ok acc
  | acc, st, (k, r) :: root => match parseStore lower (st r) with
    | (.error e, _) => .error e
    | (.ok p, d) => readCams lower (acc.set k p) (Function.update st r d) root

/-- orthority/param_io.py:253-283 on a nested file: an empty one is refused at line 263, keys that are not strings
at line 270.  Not modelled: a camera that is called `camera` (line 254). -/
def readRoot (lower : String → String) (st : Store F) (root : Root) :
    Res (Dict Key (Dict String (Py F))) :=
  match root with
  | [] => .error .stopIteration
  | _ => if root.all fun p => p.1.str?.isSome then readCams lower [] st root else .error .paramError

/-! ## Specification -/

/-- The file with every camera written out. -/
def writtenOut (st : Store F) (root : Root) : Py F := .dict (root.map fun p => (p.1, .dict (st p.2)))

/-- Two cameras of the file use the same dictionary. -/
def Shares (root : Root) : Prop := ∃ a b c k k' r, root = a ++ (k, r) :: b ++ (k', r) :: c

/-! ## The statements on one dictionary -/

theorem get?_erase (d : Dict Key (Py F)) (k k' : Key) :
    Dict.get? (Dict.erase d k) k' = if k = k' then none else Dict.get? d k' := by
  unfold Dict.erase
  induction d with
  | nil => simp [Dict.get?_nil]
  | cons q d ih =>
    by_cases h : q.1 = k
    · rw [List.filter_cons_of_neg (by simpa using h), ih, Dict.get?_cons]
      by_cases hk : k = k'
      · simp [hk]
      · rw [if_neg hk, if_neg hk, if_neg (h ▸ hk)]
    · rw [List.filter_cons_of_pos (by simpa using h), Dict.get?_cons, Dict.get?_cons, ih]
      by_cases hk : k = k'
      · simp only [hk, if_true]
        rw [if_neg (hk ▸ h)]
      · simp only [hk, if_false]

theorem erase_of_none {d : Dict Key (Py F)} {k : Key} (h : Dict.get? d k = none) : Dict.erase d k = d := by
  rw [Dict.get?_none] at h
  unfold Dict.erase
  rw [List.filter_eq_self]
  intro q hq
  simp only [ne_eq, decide_not, Bool.not_eq_eq_eq_not, Bool.not_true, decide_eq_false_iff_not]
  rintro rfl
  exact h (List.mem_map.2 ⟨q, hq, rfl⟩)

/-- What is left of a dictionary when the five known items are taken out. -/
theorem erase_five (d : Dict Key (Py F)) :
    Dict.erase (Dict.erase (Dict.erase (Dict.erase (Dict.erase d (.str "type")) (.str "im_size"))
      (.str "name")) (.str "focal_len")) (.str "sensor_size") =
    d.filter fun q => q.1 ∉ [Key.str "type", .str "im_size", .str "name", .str "focal_len", .str "sensor_size"] := by
  unfold Dict.erase
  simp only [List.filter_filter]
  apply List.filter_congr
  intro q _
  simp only [List.mem_cons, List.not_mem_nil, or_false, not_or, ne_eq]
  by_cases h1 : q.1 = .str "type" <;> by_cases h2 : q.1 = .str "im_size" <;>
    by_cases h3 : q.1 = .str "name" <;> by_cases h4 : q.1 = .str "focal_len" <;>
    by_cases h5 : q.1 = .str "sensor_size" <;> simp [h1, h2, h3, h4, h5]

theorem finishParam_left (t : FrameType) (p : Dict String (Py F)) (d : Dict Key (Py F)) :
    (finishParam t p d).2 = d := by
  unfold finishParam
  split_ifs <;> rfl

/-- `parse_yaml_param` returns the value of the model on values, and takes the type out of the dictionary unless
it raises first. -/
theorem parseStore_eq (lower : String → String) (d : Dict Key (Py F)) :
    (parseStore lower d).1 = parseIntParam lower d ∧
      ∀ p, (parseStore lower d).1 = .ok p → Dict.get? (parseStore lower d).2 (.str "type") = none := by
  unfold parseStore parseIntParam
  cases hty : Dict.get? d (.str "type") with
  | none => simp [Dict.has, hty]
  | some ty =>
  cases hsz : Dict.get? d (.str "im_size") with
  | none => simp [Dict.has, hty, hsz]
  | some size =>
  cases hfo : Dict.get? d (.str "focal_len") with
  | none => simp [Dict.has, hty, hsz, hfo]
  | some focal =>
  have hall : (["type", "im_size", "focal_len"].all fun k => Dict.has d (.str k)) = true := by
    simp [Dict.has, hty, hsz, hfo]
  rw [if_pos hall]
  cases ty with
  | str s =>
    simp only [popItem, hty]
    cases ht : FrameType.parse (lower s) with
    | none => simp
    | some t =>
      simp only
      unfold popSize
      have hsz' : Dict.get? (Dict.erase d (.str "type")) (.str "im_size") = some size := by
        rw [get?_erase, if_neg (by simp), hsz]
      simp only [popItem, hsz']
      cases hit : size.items with
      | error e => simp
      | ok l =>
        simp only
        unfold popFocal
        have hfo' : Dict.get? (Dict.erase (Dict.erase (Dict.erase d (.str "type")) (.str "im_size"))
            (.str "name")) (.str "focal_len") = some focal := by
          rw [get?_erase, if_neg (by simp), get?_erase, if_neg (by simp), get?_erase, if_neg (by simp), hfo]
        simp only [popItem, hfo']
        unfold popSensor
        have hse' : Dict.get? (Dict.erase (Dict.erase (Dict.erase (Dict.erase d (.str "type")) (.str "im_size"))
            (.str "name")) (.str "focal_len")) (.str "sensor_size") = Dict.get? d (.str "sensor_size") := by
          rw [get?_erase, if_neg (by simp), get?_erase, if_neg (by simp), get?_erase, if_neg (by simp),
            get?_erase, if_neg (by simp)]
        have hgone : Dict.get? (d.filter fun q => q.1 ∉ [Key.str "type", .str "im_size", .str "name",
            .str "focal_len", .str "sensor_size"]) (.str "type") = none := by
          rw [Dict.get?_none]
          intro hm
          obtain ⟨q, hq, he⟩ := List.mem_map.1 hm
          have := (List.mem_filter.1 hq).2
          simp [he] at this
        cases hse : Dict.get? d (.str "sensor_size") with
        | none =>
          have hleft := erase_five d
          rw [erase_of_none (by rw [hse', hse])] at hleft
          rw [if_neg (by simp [Dict.has, hse', hse]), hleft]
          refine ⟨?_, fun p _ => by rw [finishParam_left]; exact hgone⟩
          unfold finishParam
          simp only [Dict.set]
          split_ifs <;> first | rfl | contradiction
        | some v =>
          rw [if_pos (by simp [Dict.has, hse', hse])]
          simp only [popItem, hse', hse]
          cases hv : v.items with
          | error e => simp
          | ok l' =>
            simp only
            rw [erase_five d]
            refine ⟨?_, fun p _ => by rw [finishParam_left]; exact hgone⟩
            unfold finishParam
            simp only [Dict.set]
            split_ifs <;> first | rfl | contradiction
  | _ => simp [popItem, hty]

/-- A dictionary without a type is refused. -/
theorem parseStore_none (lower : String → String) {d : Dict Key (Py F)} (h : Dict.get? d (.str "type") = none) :
    (parseStore lower d).1 = .error .paramError := by
  rw [(parseStore_eq lower d).1]
  unfold parseIntParam
  rw [h]

/-! ## The loop -/

theorem readCams_nodup (lower : String → String) (root : Root) (hr : (root.map Prod.snd).Nodup) :
    ∀ (acc : Dict Key (Dict String (Py F))) (st : Store F),
      readCams lower acc st root = loop (addInt lower) acc (root.map fun p => (p.1, .dict (st p.2))) := by
  induction root with
  | nil => intro acc st; rfl
  | cons q root ih =>
    obtain ⟨k, r⟩ := q
    intro acc st
    have hr' : r ∉ root.map Prod.snd ∧ (root.map Prod.snd).Nodup := by simpa using hr
    rw [List.map_cons]
    unfold readCams loop addInt
    have he := (parseStore_eq lower (st r)).1
    generalize parseStore lower (st r) = x at he ⊢
    obtain ⟨x1, x2⟩ := x
    simp only at he ⊢
    rw [← he]
    cases x1 with
    | error e => rfl
    | ok p =>
      simp only
      rw [ih hr'.2]
      congr 1
      apply List.map_congr_left
      intro q hq
      rw [Function.update_of_ne]
      rintro rfl
      exact hr'.1 (List.mem_map.2 ⟨q, hq, rfl⟩)

/-- When a dictionary without a type is used, the file is refused. -/
theorem readCams_typeless (lower : String → String) (root : Root) (r : ℕ) (hr : r ∈ root.map Prod.snd) :
    ∀ (acc : Dict Key (Dict String (Py F))) (st : Store F), Dict.get? (st r) (.str "type") = none →
      ∃ e, readCams lower acc st root = .error e := by
  induction root with
  | nil => simp at hr
  | cons q root ih =>
    obtain ⟨k, r'⟩ := q
    intro acc st hn
    unfold readCams
    have hp := parseStore_eq lower (st r')
    have hz : r' = r → (parseStore lower (st r')).1 = .error .paramError := by
      rintro rfl; exact parseStore_none lower hn
    generalize parseStore lower (st r') = x at hp hz ⊢
    obtain ⟨x1, x2⟩ := x
    cases x1 with
    | error e => exact ⟨e, rfl⟩
    | ok p =>
      have hne : r' ≠ r := fun h => by simpa using hz h
      have hm : r ∈ root.map Prod.snd := by
        rw [List.map_cons, List.mem_cons] at hr
        exact hr.resolve_left (Ne.symm hne)
      refine ih hm _ _ ?_
      rw [Function.update_of_ne (Ne.symm hne)]
      exact hn

theorem readCams_shared (lower : String → String) (root : Root) (hr : ¬ (root.map Prod.snd).Nodup) :
    ∀ (acc : Dict Key (Dict String (Py F))) (st : Store F), ∃ e, readCams lower acc st root = .error e := by
  induction root with
  | nil => simp at hr
  | cons q root ih =>
    obtain ⟨k, r⟩ := q
    intro acc st
    unfold readCams
    have hp := parseStore_eq lower (st r)
    generalize parseStore lower (st r) = x at hp ⊢
    obtain ⟨x1, x2⟩ := x
    cases x1 with
    | error e => exact ⟨e, rfl⟩
    | ok p =>
      by_cases hm : r ∈ root.map Prod.snd
      · refine readCams_typeless lower root r hm _ _ ?_
        rw [Function.update_self]
        exact hp.2 p rfl
      · refine ih ?_ _ _
        intro hn
        exact hr (by rw [List.map_cons, List.nodup_cons]; exact ⟨hm, hn⟩)

theorem shares_not_nodup {root : Root} (h : Shares root) : ¬ (root.map Prod.snd).Nodup := by
  obtain ⟨a, b, c, k, k', r, rfl⟩ := h
  intro hn
  rw [List.map_append, List.nodup_append] at hn
  exact hn.2.2 r (by simp) r (by simp) rfl

theorem not_shares_nodup {root : Root} (h : ¬ Shares root) : (root.map Prod.snd).Nodup := by
  induction root with
  | nil => simp
  | cons q root ih =>
    obtain ⟨k, r⟩ := q
    rw [List.map_cons, List.nodup_cons]
    constructor
    · intro hm
      obtain ⟨⟨k', r'⟩, hq, he⟩ := List.mem_map.1 hm
      simp only at he
      subst he
      obtain ⟨b, c, rfl⟩ := List.append_of_mem hq
      exact h ⟨[], b, c, k, k', r', by simp⟩
    · apply ih
      rintro ⟨a, b, c, k1, k2, r', rfl⟩
      exact h ⟨(k, r) :: a, b, c, k1, k2, r', by simp⟩

/-! ## Theorems -/

/-- C94 (the part that holds): when no two cameras of a nested file use the same dictionary, the reader gives
what it gives for the file with every camera written out: the items that it takes out of one camera are not
missing from another. -/
theorem C94_distinct_partial (lower : String → String) (st : Store F) (root : Root)
    (hcam : ∀ p ∈ root, p.1 ≠ .str "camera") (hr : ¬ Shares root) :
    readRoot lower st root = readOtyInt lower (writtenOut st root) := by
  unfold readOtyInt writtenOut
  have hno : Dict.has (root.map fun p => (p.1, Py.dict (st p.2))) (.str "camera") = false := by
    unfold Dict.has
    rw [Option.isSome_eq_false_iff, Option.isNone_iff_eq_none, Dict.get?_none]
    intro hm
    simp only [List.map_map, List.mem_map, Function.comp] at hm
    obtain ⟨p, hp, he⟩ := hm
    exact hcam p hp he
  have hun : unwrapOld (.dict (root.map fun p => (p.1, Py.dict (st p.2)))) =
      .ok (.dict (root.map fun p => (p.1, Py.dict (st p.2)))) := by
    unfold unwrapOld inCamera
    simp only [hno]
  rw [hun]
  cases root with
  | nil => rfl
  | cons q root =>
    unfold readRoot
    change _ = parseCams lower (.dict ((q :: root).map fun p => (p.1, Py.dict (st p.2))))
    rw [readCams_nodup lower _ (not_shares_nodup hr)]
    unfold parseCams
    have hv : ∀ l : Root, validate (.anyKey .str (.ty .dict)) (.dict (l.map fun p => (p.1, Py.dict (st p.2)))) =
        if l.all fun p => p.1.str?.isSome then .ok () else .error .typeError := by
      intro l
      unfold validate
      simp only
      induction l with
      | nil => rfl
      | cons p l ih =>
        obtain ⟨k, r⟩ := p
        rw [List.map_cons]
        unfold forEach
        rw [ih]
        cases k with
        | str s =>
          rw [List.all_cons, show (Key.str s).str?.isSome = true from rfl, Bool.true_and]
          rfl
        | other n => simp [Key.isInstance, Key.str?, andThen]
    rw [hv]
    split_ifs <;> rfl

/-- C94 is false of files where two cameras share their parameters through a YAML alias: every such file is
refused, also when the file with both cameras written out is read. -/
theorem C94_alias_fails (lower : String → String) (st : Store F) (root : Root) (hr : Shares root) :
    ∃ e, readRoot lower st root = .error e := by
  unfold readRoot
  cases root with
  | nil => exact ⟨_, rfl⟩
  | cons q root =>
    simp only
    split_ifs
    · exact readCams_shared lower _ (shares_not_nodup hr) _ _
    · exact ⟨_, rfl⟩

/-! A file with two cameras that share one dictionary, and one with a dictionary each. -/

/-- `{type: pinhole, im_size: [100, 50], focal_len: 2}`. -/
def sharedCam : Dict Key (Py ℤ) :=
  [(.str "type", .str "pinhole"), (.str "im_size", .list [.int 100, .int 50]), (.str "focal_len", .float 2)]

/-- `a: &c {...}`, `b: *c`: refused, though the same file with `b` written out is read. -/
theorem C94_example_fails :
    Shares [(.str "a", 0), (.str "b", 0)] ∧
    readRoot id (fun _ => sharedCam) [(.str "a", 0), (.str "b", 0)] = .error .paramError ∧
    readOtyInt id (writtenOut (fun _ => sharedCam) [(.str "a", 0), (.str "b", 0)]) =
      .ok [(.str "a", [("cam_type", .str "pinhole"), ("im_size", .tuple [.int 100, .int 50]),
          ("focal_len", .float 2)]),
        (.str "b", [("cam_type", .str "pinhole"), ("im_size", .tuple [.int 100, .int 50]),
          ("focal_len", .float 2)])] :=
  ⟨⟨[], [], [], _, _, 0, rfl⟩, rfl, rfl⟩

example : readRoot id (fun _ => sharedCam) [(.str "a", 0), (.str "b", 1)] =
    readOtyInt id (writtenOut (fun _ => sharedCam) [(.str "a", 0), (.str "b", 1)]) :=
  C94_distinct_partial _ _ _ (by simp) (fun h => shares_not_nodup h (by decide))

example : readRoot id (fun _ => sharedCam) [(.str "a", 0), (.str "b", 1)] =
      .ok [(.str "a", [("cam_type", .str "pinhole"), ("im_size", .tuple [.int 100, .int 50]),
          ("focal_len", .float 2)]),
        (.str "b", [("cam_type", .str "pinhole"), ("im_size", .tuple [.int 100, .int 50]),
          ("focal_len", .float 2)])] := rfl

end Verif.ParamIO
