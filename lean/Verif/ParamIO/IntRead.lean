import Verif.ParamIO.RoundTrip2
import Mathlib.Tactic.SplitIfs

/-!
# C67: what reading an interior parameter file gives
-/

set_option autoImplicit false

namespace Verif.ParamIO

variable {F : Type}

/-! ## Specification -/

/-- The parameters that docs/file_formats/oty_int.rst:26-39 lists for a camera, with the legacy `name`. -/
def Documented (t : FrameType) (k : String) : Prop :=
  k ∈ ["type", "im_size", "focal_len", "name", "sensor_size", "cx", "cy"] ∨ k ∈ coefficients t

/-- `p` has what the camera dictionary `d` of a file says: the type, tuples for the sizes and a list of focal
lengths, and all other parameters as they are. -/
structure Says (lower : String → String) (d : Dict Key (Py F)) (t : FrameType) (p : Dict String (Py F)) :
    Prop where
  cam_type : ∃ s, Dict.get? d (.str "type") = some (.str s) ∧ lower s = t.name ∧
    Dict.get? p "cam_type" = some (.str t.name)
  im_size : ∃ v l, Dict.get? d (.str "im_size") = some v ∧ (∀ l', v = .list l' → l = l') ∧
    Dict.get? p "im_size" = some (.tuple l)
  focal_len : ∃ v f, Dict.get? d (.str "focal_len") = some v ∧ Dict.get? p "focal_len" = some f ∧
    (∀ l, v = .list l → f = .tuple l) ∧ ((∀ l, v ≠ .list l) → f = v)
  sensor_size : (Dict.get? d (.str "sensor_size") = none → Dict.get? p "sensor_size" = none) ∧
    ∀ l, Dict.get? d (.str "sensor_size") = some (.list l) → Dict.get? p "sensor_size" = some (.tuple l)
  rest : ∀ k, k ∉ ["cam_type", "type", "im_size", "focal_len", "name", "sensor_size"] →
    Dict.get? p k = Dict.get? d (.str k)
  gone : Dict.get? p "type" = none ∧ Dict.get? p "name" = none

/-! ## Theorems -/

theorem parse_eq {s : String} {t : FrameType} : FrameType.parse s = some t ↔ s = t.name := by
  constructor
  · intro h
    unfold FrameType.parse at h
    split_ifs at h with h1 h2 h3 h4 <;> cases h <;> assumption
  · rintro rfl; exact parse_name t

theorem get?_strItems (P : Key → Bool) (d : Dict Key (Py F)) (k : String) :
    Dict.get? ((d.filter fun q => P q.1).filterMap fun q => q.1.str?.map fun k => (k, q.2)) k =
      if P (.str k) then Dict.get? d (.str k) else none := by
  induction d with
  | nil => simp [Dict.get?_nil]
  | cons q d ih =>
    obtain ⟨a, v⟩ := q
    rw [Dict.get?_cons]
    by_cases hP : P a
    · rw [List.filter_cons_of_pos (by simpa using hP)]
      cases a with
      | other n =>
        rw [List.filterMap_cons_none rfl, ih, if_neg (show ¬ Key.other n = Key.str k by simp)]
      | str s =>
        rw [List.filterMap_cons_some (a := (Key.str s, v)) (b := (s, v))
          (f := fun q => q.1.str?.map fun k => (k, q.2)) rfl, Dict.get?_cons, ih]
        by_cases hs : s = k
        · subst hs; simp [hP]
        · simp [hs]
    · rw [List.filter_cons_of_neg (by simpa using hP), ih]
      by_cases ha : a = Key.str k
      · subst ha; simp [hP]
      · simp [ha]

theorem ok_strItems (P : Key → Bool) {d : Dict Key (Py F)} (hd : Dict.Ok d) :
    Dict.Ok ((d.filter fun q => P q.1).filterMap fun q => q.1.str?.map fun k => (k, q.2)) := by
  induction d with
  | nil => simp [Dict.Ok]
  | cons q d ih =>
    obtain ⟨a, v⟩ := q
    have hd' : a ∉ d.map Prod.fst ∧ Dict.Ok d := by
      simpa [Dict.Ok] using hd
    by_cases hP : P a
    · rw [List.filter_cons_of_pos (by simpa using hP)]
      cases a with
      | other n =>
        rw [List.filterMap_cons_none rfl]
        exact ih hd'.2
      | str s =>
        rw [List.filterMap_cons_some (a := (Key.str s, v)) (b := (s, v))
          (f := fun q => q.1.str?.map fun k => (k, q.2)) rfl]
        unfold Dict.Ok
        rw [List.map_cons, List.nodup_cons]
        refine ⟨?_, ih hd'.2⟩
        intro hm
        apply hd'.1
        obtain ⟨⟨k, w⟩, hq, hk⟩ := List.mem_map.1 hm
        obtain ⟨⟨a', v'⟩, hq', he⟩ := List.mem_filterMap.1 hq
        cases a' with
        | other n => simp [Key.str?] at he
        | str s' =>
          simp only [Key.str?, Option.map_some, Option.some.injEq, Prod.mk.injEq] at he
          simp only at hk
          refine List.mem_map.2 ⟨_, (List.mem_filter.1 hq').1, ?_⟩
          simp [he.1, hk]
    · rw [List.filter_cons_of_neg (by simpa using hP)]
      exact ih hd'.2

theorem any_not_opt (P : Key → Bool) (t : FrameType) (d : Dict Key (Py F)) :
    ((d.filter fun q => P q.1).any fun q => !q.1.str?.any t.optKeys.contains) = false ↔
      ∀ q ∈ d, P q.1 = true → ∃ s, q.1 = .str s ∧ s ∈ t.optKeys := by
  rw [List.any_eq_false]
  constructor
  · intro h q hq hP
    have := h q (List.mem_filter.2 ⟨hq, by simpa using hP⟩)
    obtain ⟨a, v⟩ := q
    cases a with
    | other n => simp [Key.str?] at this
    | str s => exact ⟨s, rfl, by simpa [Key.str?] using this⟩
  · intro h q hq
    obtain ⟨h1, h2⟩ := List.mem_filter.1 hq
    obtain ⟨s, hs, ho⟩ := h q h1 (by simpa using h2)
    rw [hs]
    simpa [Key.str?] using ho

/-- C67: when a camera dictionary is read, the parameters are what it says, and all its parameters are ones
that are documented for its type. -/
theorem C67_says (lower : String → String) (d : Dict Key (Py F)) (hd : Dict.Ok d) (p : Dict String (Py F))
    (h : parseIntParam lower d = .ok p) :
    ∃ t, Says lower d t p ∧ ∀ k ∈ d.map Prod.fst, ∃ s, k = .str s ∧ Documented t s := by
  unfold parseIntParam at h
  cases hty : Dict.get? d (.str "type") with
  | none => rw [hty] at h; simp at h
  | some ty =>
  cases hsz : Dict.get? d (.str "im_size") with
  | none => rw [hty, hsz] at h; simp at h
  | some size =>
  cases hfo : Dict.get? d (.str "focal_len") with
  | none => rw [hty, hsz, hfo] at h; simp at h
  | some focal =>
  rw [hty, hsz, hfo] at h
  cases ty with
  | str s =>
    simp only at h
    cases ht : FrameType.parse (lower s) with
    | none => rw [ht] at h; simp at h
    | some t =>
      rw [ht] at h
      simp only at h
      cases hi : size.items with
      | error e => rw [hi] at h; simp at h
      | ok l =>
        rw [hi] at h
        simp only at h
        refine ⟨t, ?_⟩
        -- the dictionary before the remaining items are added
        have key : ∃ q : Dict String (Py F),
            Dict.get? q "cam_type" = some (.str t.name) ∧ Dict.get? q "im_size" = some (.tuple l) ∧
            Dict.get? q "focal_len" = some (tupleIfList focal) ∧
            (Dict.get? d (.str "sensor_size") = none → Dict.get? q "sensor_size" = none) ∧
            (∀ l, Dict.get? d (.str "sensor_size") = some (.list l) →
              Dict.get? q "sensor_size" = some (.tuple l)) ∧
            (∀ k, k ∉ ["cam_type", "im_size", "focal_len", "sensor_size"] → Dict.get? q k = none) ∧
            (if (d.filter fun q => decide (q.1 ∉ [Key.str "type", .str "im_size", .str "name",
                .str "focal_len", .str "sensor_size"])).any fun q => !q.1.str?.any t.optKeys.contains
              then (.error .paramError : Res (Dict String (Py F)))
              else .ok (q.update ((d.filter fun q => decide (q.1 ∉ [Key.str "type", .str "im_size",
                .str "name", .str "focal_len", .str "sensor_size"])).filterMap
                  fun q => q.1.str?.map fun k => (k, q.2)))) = .ok p := by
          cases hss : Dict.get? d (.str "sensor_size") with
          | none =>
            rw [hss] at h
            refine ⟨_, rfl, rfl, rfl, fun _ => rfl, (by simp), ?_, h⟩
            intro k hk
            simp only [List.mem_cons, not_or] at hk
            simp only [Dict.get?_cons, Dict.get?_nil]
            rw [if_neg (Ne.symm hk.1), if_neg (Ne.symm hk.2.1), if_neg (Ne.symm hk.2.2.1)]
          | some v =>
            rw [hss] at h
            cases hv : v.items with
            | error e => simp only [hv] at h; exact absurd h (by simp)
            | ok l' =>
              simp only [hv] at h
              refine ⟨_, rfl, rfl, rfl, (by simp), ?_, ?_, h⟩
              · intro l'' he
                simp only [Option.some.injEq] at he
                subst he
                simp only [Py.items, Except.ok.injEq] at hv
                subst hv
                rfl
              · intro k hk
                simp only [List.mem_cons, not_or] at hk
                rw [Dict.get?_set, if_neg (Ne.symm hk.2.2.2.1)]
                simp only [Dict.get?_cons, Dict.get?_nil]
                rw [if_neg (Ne.symm hk.1), if_neg (Ne.symm hk.2.1), if_neg (Ne.symm hk.2.2.1)]
        obtain ⟨q, h1, h2, h3, h4, h5, h6, h7⟩ := key
        let P : Key → Bool := fun k => decide (k ∉ [Key.str "type", .str "im_size", .str "name",
          .str "focal_len", .str "sensor_size"])
        have hany : ((d.filter fun q => P q.1).any fun q => !q.1.str?.any t.optKeys.contains) = false := by
          by_contra hc
          rw [Bool.not_eq_false] at hc
          rw [if_pos hc] at h7
          exact absurd h7 (by simp)
        rw [if_neg (by rw [hany]; simp)] at h7
        have hp := Except.ok.inj h7
        have hopt := (any_not_opt P t d).1 hany
        have hget : ∀ k, Dict.get? p k =
            ((if P (.str k) then Dict.get? d (.str k) else none).or (Dict.get? q k)) := by
          intro k
          rw [← hp, Dict.get?_update _ _ (ok_strItems P hd), get?_strItems P]
        have hno : ∀ k, k ∈ ["cam_type", "im_size", "focal_len", "type", "name"] →
            (if P (.str k) then Dict.get? d (.str k) else none) = none := by
          intro k hk
          by_cases hP : P (.str k) = true
          · rw [if_pos hP]
            cases hg : Dict.get? d (.str k) with
            | none => rfl
            | some v =>
              obtain ⟨s', hs', ho⟩ := hopt _ (Dict.mem_of_get? hg) hP
              simp only [Key.str.injEq] at hs'
              subst hs'
              exfalso
              revert ho
              simp only [List.mem_cons, List.not_mem_nil, or_false] at hk
              rcases hk with rfl | rfl | rfl | rfl | rfl <;> cases t <;> decide
          · rw [if_neg hP]
        refine ⟨⟨⟨s, hty, parse_eq.1 ht, ?_⟩, ⟨size, l, hsz, ?_, ?_⟩, ⟨focal, tupleIfList focal, hfo, ?_, ?_, ?_⟩, ⟨?_, ?_⟩, ?_,
          ?_, ?_⟩, ?_⟩
        · rw [hget, hno _ (by decide), h1]; rfl
        · rintro l' rfl
          exact (Except.ok.inj hi).symm
        · rw [hget, hno _ (by decide), h2]; rfl
        · rw [hget, hno _ (by decide), h3]; rfl
        · rintro l' rfl; rfl
        · intro hl
          cases focal with
          | list l' => exact absurd rfl (hl l')
          | _ => rfl
        · intro hn
          rw [hget, hn, h4 hn]
          simp
        · intro l' hl
          rw [hget, h5 l' hl, if_neg (by simp [P])]
          rfl
        · intro k hk
          simp only [List.mem_cons, List.not_mem_nil, or_false, not_or] at hk
          rw [hget, h6 k (by simp; tauto), if_pos (by simp [P]; tauto)]
          simp
        · rw [hget, hno _ (by decide), h6 _ (by decide)]; rfl
        · rw [hget, hno _ (by decide), h6 _ (by decide)]; rfl
        · intro k hk
          obtain ⟨r, hr, rfl⟩ := List.mem_map.1 hk
          by_cases hP : P r.1 = true
          · obtain ⟨s', hs', ho⟩ := hopt r hr hP
            refine ⟨s', hs', ?_⟩
            rcases (optKeys_iff t s').1 ho with ho | ho
            · left; simp only [List.mem_cons, List.not_mem_nil, or_false] at ho ⊢; tauto
            · exact Or.inr ho
          · simp only [P, decide_eq_true_eq, not_not, List.mem_cons, List.not_mem_nil, or_false] at hP
            rcases hP with hP | hP | hP | hP | hP <;> exact ⟨_, hP, Or.inl (by decide)⟩
  | _ => simp at h

/-- C67: a camera dictionary with a known type, sizes that are lists and a focal length is read, exactly if all
its parameters are ones that are documented for the type; else `ParamError` is raised. -/
theorem C67_accepts (lower : String → String) (d : Dict Key (Py F)) (s : String) (t : FrameType)
    (hty : Dict.get? d (.str "type") = some (.str s)) (ht : lower s = t.name)
    (l : List (Py F)) (hsz : Dict.get? d (.str "im_size") = some (.list l))
    (f : Py F) (hfo : Dict.get? d (.str "focal_len") = some f)
    (hss : Dict.get? d (.str "sensor_size") = none ∨ ∃ l, Dict.get? d (.str "sensor_size") = some (.list l)) :
    ((∀ k ∈ d.map Prod.fst, ∃ s, k = .str s ∧ Documented t s) → ∃ p, parseIntParam lower d = .ok p) ∧
    (¬ (∀ k ∈ d.map Prod.fst, ∃ s, k = .str s ∧ Documented t s) →
      parseIntParam lower d = .error .paramError) := by
  have key : ∃ q : Dict String (Py F), parseIntParam lower d =
      if (d.filter fun q => decide (q.1 ∉ [Key.str "type", .str "im_size", .str "name",
          .str "focal_len", .str "sensor_size"])).any fun q => !q.1.str?.any t.optKeys.contains
        then .error .paramError
        else .ok (q.update ((d.filter fun q => decide (q.1 ∉ [Key.str "type", .str "im_size",
          .str "name", .str "focal_len", .str "sensor_size"])).filterMap
            fun q => q.1.str?.map fun k => (k, q.2))) := by
    unfold parseIntParam
    rw [hty, hsz, hfo]
    simp only [ht, parse_name, Py.items]
    rcases hss with hss | ⟨l', hss⟩ <;> rw [hss] <;> exact ⟨_, rfl⟩
  obtain ⟨q, hq⟩ := key
  let P : Key → Bool := fun k => decide (k ∉ [Key.str "type", .str "im_size", .str "name",
    .str "focal_len", .str "sensor_size"])
  have hiff : ((d.filter fun q => P q.1).any fun q => !q.1.str?.any t.optKeys.contains) = false ↔
      ∀ k ∈ d.map Prod.fst, ∃ s, k = .str s ∧ Documented t s := by
    rw [any_not_opt P t d]
    constructor
    · intro hopt k hk
      obtain ⟨r, hr, rfl⟩ := List.mem_map.1 hk
      by_cases hP : P r.1 = true
      · obtain ⟨s', hs', ho⟩ := hopt r hr hP
        refine ⟨s', hs', ?_⟩
        rcases (optKeys_iff t s').1 ho with ho | ho
        · left; simp only [List.mem_cons, List.not_mem_nil, or_false] at ho ⊢; tauto
        · exact Or.inr ho
      · simp only [P, decide_eq_true_eq, not_not, List.mem_cons, List.not_mem_nil, or_false] at hP
        rcases hP with hP | hP | hP | hP | hP <;> exact ⟨_, hP, Or.inl (by decide)⟩
    · intro hdoc r hr hP
      obtain ⟨s', hs', ho⟩ := hdoc _ (List.mem_map_of_mem hr)
      refine ⟨s', hs', (optKeys_iff t s').2 ?_⟩
      rw [hs'] at hP
      simp only [P, decide_eq_true_eq, List.mem_cons, List.not_mem_nil, or_false, not_or, Key.str.injEq] at hP
      rcases ho with ho | ho
      · left; simp only [List.mem_cons, List.not_mem_nil, or_false] at ho ⊢; tauto
      · exact Or.inr ho
  constructor
  · intro hdoc
    rw [hq, if_neg (by rw [Bool.not_eq_true]; exact hiff.2 hdoc)]
    exact ⟨_, rfl⟩
  · intro hdoc
    rw [hq, if_pos (by rw [← Bool.not_eq_false]; exact fun hc => hdoc (hiff.1 hc))]

/-- C67: a parameter that must be there and is not gives `ParamError`. -/
theorem C67_missing (lower : String → String) (d : Dict Key (Py F)) (k : String)
    (hk : k ∈ ["type", "im_size", "focal_len"]) (h : Dict.get? d (.str k) = none) :
    parseIntParam lower d = .error .paramError := by
  unfold parseIntParam
  simp only [List.mem_cons, List.not_mem_nil, or_false] at hk
  rcases hk with rfl | rfl | rfl <;> rw [h]
  · cases Dict.get? d (.str "type") <;> rfl
  · cases Dict.get? d (.str "type") <;> cases Dict.get? d (.str "im_size") <;> rfl

theorem parseCams_single (lower : String → String) (id : String) (c : Dict Key (Py F)) :
    parseCams lower (.dict [(.str id, .dict c)]) =
      match parseIntParam lower c with
      | .ok p => .ok [(.str id, p)]
      | .error e => .error e := by
  have hv : repack (validate (.anyKey .str (.ty .dict)) (Py.dict [(Key.str id, Py.dict c)])) = .ok () := rfl
  unfold parseCams
  rw [hv]
  simp only [ok_bind, loop, addInt]
  cases parseIntParam lower c <;> rfl

/-- C67: the nested, flat and old formats of one camera give the same: the camera's parameters under its ID,
which is that of the key of the nested format, or the `name` of the others, or `unknown` without one. -/
theorem C67_formats (lower : String → String) (id : String) (c : Dict Key (Py F)) (q : Key × Py F)
    (hc : c = q :: c.tail) (hflat : ∀ d, q.2 ≠ .dict d) (hcam : Dict.get? c (.str "camera") = none) :
    let one (id : String) : Res (Dict Key (Dict String (Py F))) := match parseIntParam lower c with
      | .ok p => .ok [(.str id, p)]
      | .error e => .error e
    (id ≠ "camera" → readOtyInt lower (.dict [(.str id, .dict c)]) = one id) ∧
    (∀ name, Dict.get? c (.str "name") = some (.str name) →
      readOtyInt lower (.dict c) = one name ∧ readOtyInt lower (.dict [(.str "camera", .dict c)]) = one name) ∧
    (Dict.get? c (.str "name") = none →
      readOtyInt lower (.dict c) = one "unknown" ∧
      readOtyInt lower (.dict [(.str "camera", .dict c)]) = one "unknown") := by
  have hin : inCamera (.dict c) = .ok false := by simp [inCamera, Dict.has, hcam]
  have hfirst : firstValue (.dict c) = .ok q.2 := by rw [hc]; rfl
  have hnd : isDict q.2 = false := by
    cases hq : q.2 with
    | dict d => exact absurd hq (hflat d)
    | _ => rfl
  have hold : unwrapOld (.dict [(Key.str "camera", Py.dict c)]) = .ok (.dict c) := rfl
  have hflat' : ∀ name : String, flatName (.dict c) = .ok (.str name) →
      unflatten (.dict c) = .ok (.dict [(.str name, .dict c)]) := by
    intro name hn
    unfold unflatten
    rw [hfirst]
    simp only [hnd, Bool.false_eq_true, if_false, hn]
  have hboth : ∀ name : String, flatName (.dict c) = .ok (.str name) →
      readOtyInt lower (.dict c) = parseCams lower (.dict [(.str name, .dict c)]) ∧
      readOtyInt lower (.dict [(.str "camera", .dict c)]) =
        parseCams lower (.dict [(.str name, .dict c)]) := by
    intro name hn
    have hu : unwrapOld (.dict c) = .ok (.dict c) := by
      unfold unwrapOld; rw [hin]
    unfold readOtyInt
    rw [hold, hu]
    simp only [ok_bind, hflat' name hn]
    exact ⟨trivial, trivial⟩
  refine ⟨?_, ?_, ?_⟩
  · intro hid
    have hin' : inCamera (.dict [(Key.str id, Py.dict c)]) = .ok false := by
      simp [inCamera, Dict.has, Dict.get?_cons, Dict.get?_nil, hid]
    have hu : unwrapOld (.dict [(Key.str id, Py.dict c)]) = .ok (.dict [(Key.str id, Py.dict c)]) := by
      unfold unwrapOld; rw [hin']
    have hf : unflatten (.dict [(Key.str id, Py.dict c)]) = .ok (.dict [(Key.str id, Py.dict c)]) := rfl
    unfold readOtyInt
    rw [hu]
    simp only [ok_bind, hf]
    exact parseCams_single _ _ _
  · intro name hn
    have := hboth name (by simp [flatName, hn, keyOf])
    rw [this.1, this.2]
    exact ⟨parseCams_single _ _ _, parseCams_single _ _ _⟩
  · intro hn
    have := hboth "unknown" (by simp [flatName, hn])
    rw [this.1, this.2]
    exact ⟨parseCams_single _ _ _, parseCams_single _ _ _⟩

/-- A flat file with a brown camera. -/
def demoFlat (x : F) : Dict Key (Py F) :=
  [(.str "name", .str "cam"), (.str "type", .str "brown"), (.str "im_size", .list [.int 30, .int 40]),
    (.str "focal_len", .list [.float x, .float x]), (.str "k1", .float x)]

example (x : F) : readOtyInt id (.dict (demoFlat x)) =
    .ok [(.str "cam", [("cam_type", .str "brown"), ("im_size", .tuple [.int 30, .int 40]),
      ("focal_len", .tuple [.float x, .float x]), ("k1", .float x)])] := by
  have h := ((C67_formats id "a" (demoFlat x) _ rfl (by intro d hd; cases hd) rfl).2.1 "cam" rfl).1
  rw [h]
  rfl

/-- A coefficient of another camera type is refused. -/
example (x : F) : parseIntParam id (demoFlat x ++ [(.str "k4", .float x)]) = .error .paramError :=
  (C67_accepts id _ "brown" .brown rfl rfl _ rfl _ rfl (Or.inl rfl)).2 (by
    intro h
    obtain ⟨s, hs, hd⟩ := h (.str "k4") (by simp [demoFlat])
    cases hs
    rcases hd with hd | hd <;> revert hd <;> decide)

end Verif.ParamIO
