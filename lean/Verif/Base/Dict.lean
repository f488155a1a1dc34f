import Mathlib.Data.List.Basic
import Mathlib.Data.List.Nodup

/-!
# Python dictionaries

A dictionary is the list of its items in insertion order.  Setting an existing key keeps its place.
-/

set_option autoImplicit false

namespace Verif

/-- A python `dict` as the list of its items. -/
abbrev Dict (κ α : Type) := List (κ × α)

namespace Dict

variable {κ α : Type} [DecidableEq κ]

/-- `d.get(k)`. -/
def get? (d : Dict κ α) (k : κ) : Option α := (d.find? fun p => p.1 = k).map Prod.snd

/-- `k in d`. -/
def has (d : Dict κ α) (k : κ) : Bool := (get? d k).isSome

/-- `d[k] = v`. -/
def set (d : Dict κ α) (k : κ) (v : α) : Dict κ α :=
  match d with
  | [] => [(k, v)]
  | p :: d => if p.1 = k then (k, v) :: d else p :: set d k v

/-- `d.update(e)`. -/
def update (d e : Dict κ α) : Dict κ α := e.foldl (fun d p => set d p.1 p.2) d

/-- `dict(items)`, `{k: v for ...}`: later items win. -/
def ofItems (l : List (κ × α)) : Dict κ α := update [] l

/-- `d.pop(k, None)` (the dictionary part). -/
def erase (d : Dict κ α) (k : κ) : Dict κ α := d.filter fun p => p.1 ≠ k

/-- Keys are distinct, as in every python dictionary. -/
def Ok (d : Dict κ α) : Prop := (d.map Prod.fst).Nodup

theorem get?_nil (k : κ) : get? ([] : Dict κ α) k = none := rfl

theorem get?_cons (p : κ × α) (d : Dict κ α) (k : κ) :
    get? (p :: d) k = if p.1 = k then some p.2 else get? d k := by
  unfold get?
  by_cases h : p.1 = k <;> simp [h]

theorem get?_set (d : Dict κ α) (k k' : κ) (v : α) :
    get? (set d k v) k' = if k = k' then some v else get? d k' := by
  induction d with
  | nil => simp [set, get?_cons]
  | cons p d ih =>
    unfold set
    by_cases h : p.1 = k
    · rw [if_pos h]
      simp only [get?_cons]
      split_ifs with h1 h2 <;> simp_all
    · rw [if_neg h]
      simp only [get?_cons, ih]
      by_cases h1 : p.1 = k'
      · simp only [h1, if_true]
        rw [if_neg]
        rintro rfl; exact h h1
      · simp [h1]

theorem keys_set (d : Dict κ α) (k : κ) (v : α) :
    (set d k v).map Prod.fst = if k ∈ d.map Prod.fst then d.map Prod.fst else d.map Prod.fst ++ [k] := by
  induction d with
  | nil => simp [set]
  | cons p d ih =>
    unfold set
    by_cases h : p.1 = k
    · simp [h]
    · rw [if_neg h, List.map_cons, ih]
      by_cases h2 : k ∈ d.map Prod.fst
      · simp only [h2, if_true, List.map_cons, List.mem_cons, or_true]
      · rw [if_neg h2, if_neg]
        · rfl
        · simp only [List.map_cons, List.mem_cons, not_or]
          exact ⟨fun e => h e.symm, h2⟩

theorem Ok.set {d : Dict κ α} (h : Ok d) (k : κ) (v : α) : Ok (set d k v) := by
  unfold Ok at *
  rw [keys_set]
  split_ifs with h1
  · exact h
  · rw [List.nodup_append]
    refine ⟨h, by simp, ?_⟩
    intro a ha b hb
    simp only [List.mem_singleton] at hb
    rintro rfl
    exact h1 (hb ▸ ha)

theorem Ok.update {d : Dict κ α} (h : Ok d) (e : Dict κ α) : Ok (update d e) := by
  unfold Dict.update
  induction e generalizing d with
  | nil => exact h
  | cons p e ih => exact ih (h.set p.1 p.2)

theorem ok_ofItems (l : List (κ × α)) : Ok (ofItems l) := Ok.update (by simp [Ok]) l

theorem get?_none {d : Dict κ α} {k : κ} : get? d k = none ↔ k ∉ d.map Prod.fst := by
  induction d with
  | nil => simp [get?]
  | cons p d ih =>
    rw [get?_cons]
    by_cases h : p.1 = k
    · simp [h]
    · rw [if_neg h, ih, List.map_cons, List.mem_cons, not_or]
      exact ⟨fun h1 => ⟨fun e => h e.symm, h1⟩, fun h1 => h1.2⟩

theorem mem_of_get? {d : Dict κ α} {k : κ} {v : α} (h : get? d k = some v) : (k, v) ∈ d := by
  induction d with
  | nil => simp [get?] at h
  | cons p d ih =>
    rw [get?_cons] at h
    split_ifs at h with h1
    · simp only [Option.some.injEq] at h
      rw [← h1, ← h]
      exact List.mem_cons_self ..
    · exact List.mem_cons_of_mem _ (ih h)

theorem get?_of_mem {d : Dict κ α} (hd : Ok d) {k : κ} {v : α} (h : (k, v) ∈ d) : get? d k = some v := by
  induction d with
  | nil => simp at h
  | cons p d ih =>
    unfold Ok at hd ih
    rw [List.map_cons, List.nodup_cons] at hd
    rw [get?_cons]
    rcases List.mem_cons.1 h with h1 | h1
    · subst h1; simp
    · rw [if_neg, ih hd.2 h1]
      intro e
      exact hd.1 (e ▸ List.mem_map_of_mem (f := Prod.fst) h1)

theorem get?_eq_some {d : Dict κ α} (hd : Ok d) {k : κ} {v : α} : get? d k = some v ↔ (k, v) ∈ d :=
  ⟨mem_of_get?, get?_of_mem hd⟩

theorem get?_update (d e : Dict κ α) (he : Ok e) (k : κ) :
    get? (update d e) k = (get? e k).or (get? d k) := by
  unfold update
  induction e generalizing d with
  | nil => simp [get?]
  | cons p e ih =>
    unfold Ok at he ih
    rw [List.map_cons, List.nodup_cons] at he
    rw [List.foldl_cons, ih _ he.2, get?_set, get?_cons]
    by_cases h : p.1 = k
    · have : get? e k = none := by
        rw [get?_none, ← h]; exact he.1
      simp [h, this]
    · simp [h]

theorem set_of_not_mem {d : Dict κ α} {k : κ} (h : k ∉ d.map Prod.fst) (v : α) : set d k v = d ++ [(k, v)] := by
  induction d with
  | nil => rfl
  | cons p d ih =>
    simp only [List.map_cons, List.mem_cons, not_or] at h
    unfold set
    rw [if_neg (fun e => h.1 e.symm), ih h.2]
    rfl

theorem update_append {d e : Dict κ α} (h : Ok (d ++ e)) : update d e = d ++ e := by
  unfold update
  induction e generalizing d with
  | nil => simp
  | cons p e ih =>
    rw [List.foldl_cons, set_of_not_mem, ih]
    · simp
    · simpa using h
    · intro hm
      unfold Ok at h
      rw [List.map_append, List.nodup_append] at h
      exact h.2.2 p.1 hm p.1 (by simp) rfl

/-- A list of items with distinct keys is its own dictionary. -/
theorem ofItems_ok {l : List (κ × α)} (h : Ok l) : ofItems l = l := update_append (d := []) h

theorem get?_map {β : Type} (f : α → β) (d : Dict κ α) (k : κ) :
    get? (d.map fun p => (p.1, f p.2)) k = (get? d k).map f := by
  induction d with
  | nil => rfl
  | cons p d ih =>
    rw [List.map_cons, get?_cons, get?_cons, ih]
    split_ifs <;> rfl

theorem get?_erase (d : Dict κ α) (k k' : κ) :
    get? (erase d k) k' = if k = k' then none else get? d k' := by
  induction d with
  | nil => simp [erase, get?]
  | cons p d ih =>
    unfold erase at *
    by_cases h : p.1 = k
    · simp only [List.filter_cons, h, ne_eq, not_true_eq_false, decide_false, Bool.false_eq_true,
        if_false, ih, get?_cons]
      split_ifs <;> rfl
    · simp only [List.filter_cons, h, ne_eq, not_false_eq_true, decide_true, if_true, ih, get?_cons]
      by_cases h1 : p.1 = k'
      · simp only [h1, if_true]
        rw [if_neg]
        rintro rfl; exact h h1
      · simp [h1]

end Dict
end Verif
