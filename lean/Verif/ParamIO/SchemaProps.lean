import Verif.ParamIO.Schema
import Mathlib.Tactic.SplitIfs

/-!
# C16: schema validation
-/

set_option autoImplicit false

namespace Verif.ParamIO

variable {F : Type}

mutual
/-- Specification: the value conforms to the schema.  `e` says if an empty list conforms to a schema of one
item, which is for the items of a list of any length. -/
def Conforms (e : Bool) : Schema → Py F → Prop
  | .anyKey t s, v => ∃ d, v = .dict d ∧ ∀ p ∈ d, p.1.isInstance t = true ∧ Conforms e s p.2
  | .fields fs, v => ∃ d, v = .dict d ∧ FieldsConform e fs d
  | .list ss, v => ∃ l, v = .list l ∧
    match ss with
    | .nil => False
    | .cons s .nil => (e = true ∨ l ≠ []) ∧ ∀ x ∈ l, Conforms e s x
    | .cons s ss => ∃ x l', l = x :: l' ∧ l'.length = ss.length ∧ Conforms e s x ∧ ItemsConform e ss l'
  | .ty t, v => v.isInstance t = true
  | .tys ts, v => ∃ t ∈ ts, v.isInstance t = true
  | .val s, v => v = .str s
  | .any, _ => True

/-- Every key of the schema is in the dictionary, with a value that conforms. -/
def FieldsConform (e : Bool) : Fields → List (Key × Py F) → Prop
  | .nil, _ => True
  | .cons k s fs, d => (∃ x, Dict.get? d (.str k) = some x ∧ Conforms e s x) ∧ FieldsConform e fs d

/-- The items conform one by one. -/
def ItemsConform (e : Bool) : Schemas → List (Py F) → Prop
  | .nil, _ => True
  | .cons s ss, l => match l with
    | [] => True
    | x :: l => Conforms e s x ∧ ItemsConform e ss l
end

mutual
/-- The schema has no empty dictionary. -/
def Schema.Ok : Schema → Prop
  | .anyKey _ s => s.Ok
  | .fields fs => fs ≠ .nil ∧ fs.Ok
  | .list ss => ss.Ok
  | _ => True

def Fields.Ok : Fields → Prop
  | .nil => True
  | .cons _ s fs => s.Ok ∧ fs.Ok

def Schemas.Ok : Schemas → Prop
  | .nil => True
  | .cons s ss => s.Ok ∧ ss.Ok
end

theorem andThen_ok (r q : Res Unit) : andThen r q = .ok () ↔ r = .ok () ∧ q = .ok () := by
  cases r with
  | error e => simp [andThen]
  | ok u => cases u; simp [andThen]

theorem andThen_error {r q : Res Unit} {e : PyErr} (h : andThen r q = .error e) :
    r = .error e ∨ q = .error e := by
  cases r with
  | error e' => left; simpa [andThen] using h
  | ok u => right; simpa [andThen] using h

theorem forEach_ok {α : Type} (f : α → Res Unit) (l : List α) :
    forEach f l = .ok () ↔ ∀ a ∈ l, f a = .ok () := by
  induction l with
  | nil => simp [forEach]
  | cons a l ih => simp [forEach, andThen_ok, ih]

theorem forEach_error {α : Type} {f : α → Res Unit} {l : List α} {e : PyErr} (h : forEach f l = .error e) :
    ∃ a ∈ l, f a = .error e := by
  induction l with
  | nil => simp [forEach] at h
  | cons a l ih =>
    rcases andThen_error h with h1 | h1
    · exact ⟨a, List.mem_cons_self .., h1⟩
    · obtain ⟨b, hb, hb'⟩ := ih h1
      exact ⟨b, List.mem_cons_of_mem _ hb, hb'⟩

mutual
theorem validate_iff : (s : Schema) → s.Ok → (v : Py F) → (validate s v = .ok () ↔ Conforms false s v)
  | .anyKey t s, hs, v => by
    cases v with
    | dict d =>
      simp only [validate, Conforms, Py.dict.injEq, exists_eq_left', forEach_ok]
      refine forall₂_congr fun p _ => ?_
      by_cases hk : p.1.isInstance t = true
      · simp only [hk, not_true_eq_false, if_false, true_and]
        exact validate_iff s hs p.2
      · simp [hk]
    | _ => simp [validate, Conforms]
  | .fields fs, hs, v => by
    cases v with
    | dict d =>
      simp only [Conforms, Py.dict.injEq, exists_eq_left']
      cases fs with
      | nil => exact absurd rfl hs.1
      | cons k s fs =>
        have h1 := validate_iff s hs.2.1
        have h2 := validateFields_iff fs hs.2.2 d
        simp only [validate, FieldsConform]
        cases hg : Dict.get? d (.str k) with
        | none => simp
        | some x =>
          simp only [andThen_ok, h1 x, h2, Option.some.injEq, exists_eq_left']
    | _ => simp [validate, Conforms]
  | .list ss, hs, v => by
    cases v with
    | list l =>
      simp only [Conforms, Py.list.injEq, exists_eq_left']
      cases ss with
      | nil => simp [validate]
      | cons s ss =>
        have h1 := validate_iff s hs.1
        cases ss with
        | nil =>
          simp only [validate, Bool.false_eq_true, false_or, List.length_eq_zero_iff]
          by_cases hl : l = []
          · simp [hl]
          · simp only [hl, if_false, forEach_ok, ne_eq, not_false_eq_true, true_and]
            exact forall₂_congr fun p _ => h1 p
        | cons s' ss' =>
          have h2 := validateZip_iff (.cons s' ss') hs.2
          cases l with
          | nil => simp [validate]
          | cons x l =>
            simp only [validate, List.length_cons, Nat.add_eq_zero_iff, Nat.one_ne_zero, and_false, if_false,
              List.cons.injEq, ne_eq, Nat.add_right_cancel_iff]
            by_cases hl : l.length = (Schemas.cons s' ss').length
            · simp only [hl, not_true_eq_false, if_false, andThen_ok, h1 x, h2 l]
              constructor
              · rintro ⟨a, b⟩; exact ⟨x, l, ⟨rfl, rfl⟩, hl, a, b⟩
              · rintro ⟨y, l', ⟨rfl, rfl⟩, -, a, b⟩; exact ⟨a, b⟩
            · simp only [hl, not_false_eq_true, if_true, reduceCtorEq, false_iff]
              rintro ⟨y, l', ⟨rfl, rfl⟩, h, -⟩
              exact hl h
    | _ => simp [validate, Conforms]
  | .ty t, _, v => by simp [validate, Conforms]
  | .tys ts, _, v => by simp [validate, Conforms]
  | .val s, _, v => by
    cases v <;> simp [validate, Conforms]
  | .any, _, v => by simp [validate, Conforms]

theorem validateFields_iff : (fs : Fields) → fs.Ok → (d : List (Key × Py F)) →
    (validateFields fs d = .ok () ↔ FieldsConform false fs d)
  | .nil, _, d => by simp [validateFields, FieldsConform]
  | .cons k s fs, hs, d => by
    have h1 := validate_iff s hs.1
    have h2 := validateFields_iff fs hs.2 d
    simp only [validateFields, FieldsConform]
    cases hg : Dict.get? d (.str k) with
    | none => simp
    | some x => simp only [andThen_ok, h1 x, h2, Option.some.injEq, exists_eq_left']

theorem validateZip_iff : (ss : Schemas) → ss.Ok → (l : List (Py F)) →
    (validateZip ss l = .ok () ↔ ItemsConform false ss l)
  | .nil, _, l => by simp [validateZip, ItemsConform]
  | .cons s ss, hs, l => by
    have h1 := validate_iff s hs.1
    cases l with
    | nil => simp [validateZip, ItemsConform]
    | cons x l =>
      have h2 := validateZip_iff ss hs.2 l
      simp only [validateZip, ItemsConform, andThen_ok, h1 x, h2]
end

/-- C16: `validate_collection` accepts a value exactly when the value conforms, empty lists excluded, for
every schema without empty dictionaries. -/
theorem C16_validate_iff (s : Schema) (hs : s.Ok) (v : Py F) :
    validate s v = .ok () ↔ Conforms false s v := validate_iff s hs v

mutual
theorem conforms_mono : (s : Schema) → (v : Py F) → Conforms false s v → Conforms true s v
  | .anyKey t s, v, h => by
    obtain ⟨d, rfl, h⟩ := h
    exact ⟨d, rfl, fun p hp => ⟨(h p hp).1, conforms_mono s p.2 (h p hp).2⟩⟩
  | .fields fs, v, h => by
    obtain ⟨d, rfl, h⟩ := h
    exact ⟨d, rfl, fieldsConform_mono fs d h⟩
  | .list .nil, v, h => by
    obtain ⟨d, rfl, h⟩ := h
    exact h.elim
  | .list (.cons s .nil), v, h => by
    obtain ⟨d, rfl, h⟩ := h
    exact ⟨d, rfl, Or.inl rfl, fun x hx => conforms_mono s x (h.2 x hx)⟩
  | .list (.cons s (.cons s' ss)), v, h => by
    obtain ⟨d, rfl, x, l', rfl, h1, h2, h3⟩ := h
    exact ⟨_, rfl, x, l', rfl, h1, conforms_mono s x h2, itemsConform_mono _ _ h3⟩
  | .ty _, _, h => h
  | .tys _, _, h => h
  | .val _, _, h => h
  | .any, _, _ => trivial

theorem fieldsConform_mono : (fs : Fields) → (d : List (Key × Py F)) → FieldsConform false fs d →
    FieldsConform true fs d
  | .nil, _, _ => trivial
  | .cons k s fs, d, h => by
    obtain ⟨⟨x, h1, h2⟩, h3⟩ := h
    exact ⟨⟨x, h1, conforms_mono s x h2⟩, fieldsConform_mono fs d h3⟩

theorem itemsConform_mono : (ss : Schemas) → (l : List (Py F)) → ItemsConform false ss l →
    ItemsConform true ss l
  | .nil, _, _ => trivial
  | .cons _ _, [], _ => trivial
  | .cons s ss, x :: l, h => ⟨conforms_mono s x h.1, itemsConform_mono ss l h.2⟩
end

/-- C16: every accepted value conforms to the schema as documented. -/
theorem C16_sound (s : Schema) (hs : s.Ok) (v : Py F) (h : validate s v = .ok ()) : Conforms true s v :=
  conforms_mono s v ((validate_iff s hs v).1 h)

/-- C16: not every value that conforms as documented is accepted: an empty list, of which all items are
of any type, is refused with `ValueError`. -/
theorem C16_empty_list_fails : ∃ (s : Schema) (v : Py F), s.Ok ∧ Conforms true s v ∧
    validate s v = .error .valueError := by
  refine ⟨.fields (.cons "features" (.list (.cons (.ty .dict) .nil)) .nil),
    .dict [(.str "features", .list [])], ⟨by simp, ⟨trivial, trivial⟩, trivial⟩,
    ⟨_, rfl, ⟨.list [], rfl, [], rfl, Or.inl rfl, by simp⟩, trivial⟩, rfl⟩

/-- C16 (part): a value that conforms as documented is accepted, if lists in it are not empty.  Missing:
empty lists (`C16_empty_list_fails`). -/
theorem C16_complete_partial (s : Schema) (hs : s.Ok) (v : Py F) (h : Conforms false s v) :
    validate s v = .ok () := (validate_iff s hs v).2 h

mutual
theorem validate_errors : (s : Schema) → s.Ok → (v : Py F) → (e : PyErr) → validate s v = .error e →
    e = .valueError ∨ e = .typeError ∨ e = .keyError
  | .anyKey t s, hs, v, e, h => by
    cases v with
    | dict d =>
      simp only [validate] at h
      obtain ⟨p, -, hp⟩ := forEach_error h
      by_cases hk : p.1.isInstance t = true
      · rw [if_neg (not_not.2 hk)] at hp
        exact validate_errors s hs _ e hp
      · rw [if_pos hk] at hp
        simp only [Except.error.injEq] at hp
        simp [← hp]
    | _ => simp only [validate, Except.error.injEq] at h; simp [← h]
  | .fields fs, hs, v, e, h => by
    cases v with
    | dict d =>
      cases fs with
      | nil => exact absurd rfl hs.1
      | cons k s fs =>
        simp only [validate] at h
        cases hg : Dict.get? d (.str k) with
        | none => simp only [hg, Except.error.injEq] at h; simp [← h]
        | some x =>
          simp only [hg] at h
          rcases andThen_error h with h | h
          · exact validate_errors s hs.2.1 x e h
          · exact validateFields_errors fs hs.2.2 d e h
    | _ => simp only [validate, Except.error.injEq] at h; simp [← h]
  | .list ss, hs, v, e, h => by
    cases v with
    | list l =>
      cases ss with
      | nil => simp only [validate, Except.error.injEq] at h; simp [← h]
      | cons s ss =>
        have h1 := validate_errors s hs.1
        cases ss with
        | nil =>
          simp only [validate] at h
          split_ifs at h
          · simp only [Except.error.injEq] at h; simp [← h]
          · obtain ⟨p, -, hp⟩ := forEach_error h
            exact h1 p e hp
        | cons s' ss' =>
          have h2 := validateZip_errors (.cons s' ss') hs.2
          cases l with
          | nil => simp only [validate, List.length_nil, if_true, Except.error.injEq] at h; simp [← h]
          | cons x l =>
            simp only [validate] at h
            rw [if_neg (by simp)] at h
            by_cases hl : (x :: l).length = (Schemas.cons s' ss').length + 1
            swap
            · rw [if_pos hl] at h
              simp only [Except.error.injEq] at h; simp [← h]
            · rw [if_neg (not_not.2 hl)] at h
              rcases andThen_error h with h | h
              · exact h1 x e h
              · exact h2 l e h
    | _ => simp only [validate, Except.error.injEq] at h; simp [← h]
  | .ty t, _, v, e, h => by
    simp only [validate] at h
    split_ifs at h
    simp only [Except.error.injEq] at h; simp [← h]
  | .tys ts, _, v, e, h => by
    simp only [validate] at h
    split_ifs at h
    simp only [Except.error.injEq] at h; simp [← h]
  | .val s, _, v, e, h => by
    cases v with
    | str s' =>
      simp only [validate] at h
      split_ifs at h
      simp only [Except.error.injEq] at h; simp [← h]
    | _ => simp only [validate, Except.error.injEq] at h; simp [← h]
  | .any, _, v, e, h => by simp [validate] at h

theorem validateFields_errors : (fs : Fields) → fs.Ok → (d : List (Key × Py F)) → (e : PyErr) →
    validateFields fs d = .error e → e = .valueError ∨ e = .typeError ∨ e = .keyError
  | .nil, _, d, e, h => by simp [validateFields] at h
  | .cons k s fs, hs, d, e, h => by
    simp only [validateFields] at h
    cases hg : Dict.get? d (.str k) with
    | none => simp only [hg, Except.error.injEq] at h; simp [← h]
    | some x =>
      simp only [hg] at h
      rcases andThen_error h with h | h
      · exact validate_errors s hs.1 x e h
      · exact validateFields_errors fs hs.2 d e h

theorem validateZip_errors : (ss : Schemas) → ss.Ok → (l : List (Py F)) → (e : PyErr) →
    validateZip ss l = .error e → e = .valueError ∨ e = .typeError ∨ e = .keyError
  | .nil, _, l, e, h => by simp [validateZip] at h
  | .cons s ss, hs, l, e, h => by
    cases l with
    | nil => simp [validateZip] at h
    | cons x l =>
      simp only [validateZip] at h
      rcases andThen_error h with h | h
      · exact validate_errors s hs.1 x e h
      · exact validateZip_errors ss hs.2 l e h
end

/-- C16: a refused value gives `ValueError`, `TypeError` or `KeyError`, the three that callers catch. -/
theorem C16_errors (s : Schema) (hs : s.Ok) (v : Py F) (e : PyErr) (h : validate s v = .error e) :
    e = .valueError ∨ e = .typeError ∨ e = .keyError := validate_errors s hs v e h

/-- C16: a schema with an empty dictionary raises `IndexError` on a dictionary, which callers do not
catch. -/
theorem C16_empty_schema_fails : validate (F := F) (.fields .nil) (.dict []) = .error .indexError := rfl

/-- A nested value accepted by a nested schema. -/
example : validate (F := F) (.fields (.cons "type" (.val "A") (.cons "pts"
      (.list (.cons (.list (.cons (.tys [.int, .float]) (.cons (.tys [.int, .float]) .nil))) .nil)) .nil)))
    (.dict [(.str "pts", .list [.list [.int 1, .bool true], .list [.int 2, .int 3]]), (.str "type", .str "A"),
      (.other 3, .null)]) = .ok () := rfl

end Verif.ParamIO
