import Verif.Readers.OsfmInt

/-!
# C86: OpenSfM / OpenDroneMap files that are not right
-/

set_option autoImplicit false

namespace Verif.Readers

open ParamIO

variable {F X : Type}

/-! ## Specification -/

/-- Projection types that are read: those of the documentation, and two more camera types of the library. -/
def allTypes : List (String × FrameType) := projectionTypes ++ [("opencv", .opencv), ("pinhole", .pinhole)]

/-- The dictionary of a camera is right: its projection type is known, it has a width and a height, `focal` or else both of `focal_x` and
`focal_y`, and every other parameter is one of the camera type. -/
def CameraOk (py : PyFuns F) (d : Dict Key (Py F)) : Prop :=
  ∃ s n t, Dict.get? d (.str "projection_type") = some (.str s) ∧ py.strip (py.lower (py.lower s)) = n ∧ (n, t) ∈ allTypes ∧
    (Dict.get? d (.str "width")).isSome ∧ (Dict.get? d (.str "height")).isSome ∧
    ∃ focal : List String, (focal = ["focal"] ∧ (Dict.get? d (.str "focal")).isSome ∨
      focal = ["focal_x", "focal_y"] ∧ Dict.get? d (.str "focal") = none ∧ (Dict.get? d (.str "focal_x")).isSome ∧
        (Dict.get? d (.str "focal_y")).isSome) ∧
    ∀ k ∈ d.map Prod.fst, ∃ s, k = .str s ∧ (s ∈ focal ∨ s ∈ ["projection_type", "width", "height", "c_x", "c_y", "cx", "cy",
      "sensor_size"] ∨ s ∈ coefficients t)

/-- The projection type of every camera of the file, if it has one, is a string. -/
def TypesAreStrings (json : Py F) : Prop :=
  ∀ id c v, FileCamera json id c → Dict.get? c (.str "projection_type") = some v → ∃ s, v = .str s

/-! ## Theorems -/

theorem fromOdm_iff (py : PyFuns F) (s : String) (t : FrameType) :
    fromOdm py s = some t ↔ (py.strip (py.lower s), t) ∈ allTypes := by
  unfold fromOdm
  generalize py.strip (py.lower s) = n
  simp only [allTypes, projectionTypes, List.cons_append, List.nil_append, List.mem_cons, List.not_mem_nil, or_false, Prod.mk.injEq]
  by_cases h : n = "perspective" ∨ n = "simple_radial" ∨ n = "radial"
  · rw [if_pos h]
    rcases h with rfl | rfl | rfl <;> cases t <;> decide
  · rw [if_neg h]
    unfold FrameType.parse
    split_ifs with h1 h2 h3 h4 <;> first | (subst_vars; cases t <;> simp; done) | (cases t <;> simp <;> tauto)

theorem parse_cases (py : PyFuns F) (d : Dict Key (Py F)) (hs : ∀ v, Dict.get? d (.str "projection_type") = some v → ∃ s, v = .str s) :
    ((∃ p, parseOsfmParam py d = .ok p) ∧ CameraOk py d) ∨ (parseOsfmParam py d = .error .paramError ∧ ¬ CameraOk py d) := by
  unfold parseOsfmParam
  cases hty : Dict.get? d (.str "projection_type") with
  | none => exact Or.inr ⟨rfl, by rintro ⟨s, n, t, h, -⟩; rw [hty] at h; cases h⟩
  | some ty =>
  cases hw : Dict.get? d (.str "width") with
  | none => exact Or.inr ⟨rfl, by rintro ⟨s, n, t, -, -, -, h, -⟩; rw [hw] at h; cases h⟩
  | some w =>
  cases hh : Dict.get? d (.str "height") with
  | none => exact Or.inr ⟨rfl, by rintro ⟨s, n, t, -, -, -, -, h, -⟩; rw [hh] at h; cases h⟩
  | some ht =>
  obtain ⟨s, rfl⟩ := hs ty hty
  simp only
  cases hf : fromOdm py (py.lower s) with
  | none =>
    refine Or.inr ⟨rfl, ?_⟩
    rintro ⟨s', n, t, h, hn, hm, -⟩
    rw [hty] at h
    cases h
    rw [← hn, ← fromOdm_iff, hf] at hm
    cases hm
  | some t =>
    simp only
    cases hfo : osfmFocal py d with
    | none =>
      refine Or.inr ⟨rfl, ?_⟩
      rintro ⟨s', n, t, -, -, -, -, -, focal, hc, -⟩
      unfold osfmFocal at hfo
      rcases hc with ⟨-, h⟩ | ⟨-, h, hx, hy⟩
      · obtain ⟨f, h⟩ := Option.isSome_iff_exists.1 h
        rw [h] at hfo
        cases hfo
      · obtain ⟨x, hx⟩ := Option.isSome_iff_exists.1 hx
        obtain ⟨y, hy⟩ := Option.isSome_iff_exists.1 hy
        rw [h, hx, hy] at hfo
        cases hfo
    | some fu =>
      obtain ⟨focal, used⟩ := fu
      simp only
      have hused : used = ["focal"] ∧ (Dict.get? d (.str "focal")).isSome ∨
          used = ["focal_x", "focal_y"] ∧ Dict.get? d (.str "focal") = none ∧ (Dict.get? d (.str "focal_x")).isSome ∧
            (Dict.get? d (.str "focal_y")).isSome := by
        unfold osfmFocal at hfo
        cases h1 : Dict.get? d (.str "focal") with
        | some f => rw [h1] at hfo; simp only [Option.some.injEq, Prod.mk.injEq] at hfo; exact Or.inl ⟨hfo.2.symm, rfl⟩
        | none =>
          rw [h1] at hfo
          cases h2 : Dict.get? d (.str "focal_x") with
          | none => rw [h2] at hfo; simp at hfo
          | some x =>
            cases h3 : Dict.get? d (.str "focal_y") with
            | none => rw [h2, h3] at hfo; simp at hfo
            | some y =>
              rw [h2, h3] at hfo
              simp only [Option.some.injEq, Prod.mk.injEq] at hfo
              exact Or.inr ⟨hfo.2.symm, rfl, rfl, rfl⟩
      have hany := any_not_opt (fun k => decide (k ∉ (["projection_type", "width", "height", "c_x", "c_y"] ++ used).map Key.str)) t d
      by_cases hr : ((d.filter fun q => decide (q.1 ∉ (["projection_type", "width", "height", "c_x", "c_y"] ++ used).map Key.str)).any
          fun q => !q.1.str?.any t.optKeys.contains) = true
      · rw [if_pos hr]
        refine Or.inr ⟨rfl, ?_⟩
        rintro ⟨s', n, t', h, hn, hm, -, -, focal', hc, hk⟩
        rw [hty] at h
        cases h
        rw [← hn, ← fromOdm_iff, hf] at hm
        cases hm
        have hfe : focal' = used := by
          rcases hused with ⟨rfl, h1⟩ | ⟨rfl, h1, -⟩ <;> rcases hc with ⟨rfl, h2⟩ | ⟨rfl, h2, -⟩
          · rfl
          · rw [h2] at h1; cases h1
          · rw [h1] at h2; cases h2
          · rfl
        subst hfe
        rw [hany.2] at hr
        · cases hr
        intro q hq hP
        obtain ⟨s'', he, hs''⟩ := hk q.1 (List.mem_map.2 ⟨q, hq, rfl⟩)
        refine ⟨s'', he, (optKeys_iff t s'').2 ?_⟩
        rw [he] at hP
        simp only [decide_eq_true_eq, List.mem_map, Key.str.injEq, exists_eq_right, List.mem_append, not_or] at hP
        rcases hs'' with h | h | h
        · exact absurd h hP.2
        · simp only [List.mem_cons, List.not_mem_nil, or_false, not_or] at h hP ⊢
          tauto
        · exact Or.inr h
      · rw [if_neg hr]
        refine Or.inl ⟨⟨_, rfl⟩, s, _, t, hty, rfl, (fromOdm_iff _ _ _).1 hf, by rw [hw]; rfl, by rw [hh]; rfl, used, hused, ?_⟩
        intro k hk
        obtain ⟨q, hq, rfl⟩ := List.mem_map.1 hk
        rw [Bool.not_eq_true] at hr
        by_cases hP : q.1 ∈ (["projection_type", "width", "height", "c_x", "c_y"] ++ used).map Key.str
        · obtain ⟨s', hs', he⟩ := List.mem_map.1 hP
          refine ⟨s', he.symm, ?_⟩
          rcases List.mem_append.1 hs' with h | h
          · simp only [List.mem_cons, List.not_mem_nil, or_false] at h ⊢
            tauto
          · exact Or.inl h
        · obtain ⟨s', he, ho⟩ := hany.1 hr q hq (by simpa using hP)
          refine ⟨s', he, ?_⟩
          rcases (optKeys_iff t s').1 ho with h | h
          · simp only [List.mem_cons, List.not_mem_nil, or_false] at h ⊢
            tauto
          · exact Or.inr (Or.inr h)

theorem loop_cases {α β : Type} {f : Dict Key β → α → Res (Dict Key β)} {key : α → Key} {val : α → Res β} (P : α → Prop)
    (hf : ∀ a d, f d a = setRes d (key a) (val a)) (l : List α)
    (hv : ∀ a ∈ l, ((∃ v, val a = .ok v) ∧ P a) ∨ (val a = .error .paramError ∧ ¬ P a)) (d : Dict Key β) :
    ((∃ d', loop f d l = .ok d') ∧ ∀ a ∈ l, P a) ∨ (loop f d l = .error .paramError ∧ ¬ ∀ a ∈ l, P a) := by
  induction l generalizing d with
  | nil => exact Or.inl ⟨⟨d, rfl⟩, by simp⟩
  | cons a l ih =>
    unfold loop
    rw [hf]
    rcases hv a List.mem_cons_self with ⟨⟨v, h⟩, hP⟩ | ⟨h, hP⟩
    · rw [h]
      simp only [setRes]
      rcases ih (fun b hb => hv b (List.mem_cons_of_mem _ hb)) (d.set (key a) v) with ⟨h1, h2⟩ | ⟨h1, h2⟩
      · exact Or.inl ⟨h1, by simpa using ⟨hP, h2⟩⟩
      · exact Or.inr ⟨h1, fun h => h2 fun b hb => h b (List.mem_cons_of_mem _ hb)⟩
    · rw [h]
      exact Or.inr ⟨rfl, fun h => hP (h a List.mem_cons_self)⟩

theorem cams_cases (py : PyFuns F) (v : Py F)
    (hs : ∀ cams id c x, v = .dict cams → (Key.str id, Py.dict c) ∈ cams → Dict.get? c (.str "projection_type") = some x → ∃ s, x = .str s) :
    ((∃ r, readOsfmInt py v = .ok r) ∧ ∃ cams, v = .dict cams ∧ ∀ p ∈ cams, ∃ id c, p = (Key.str id, Py.dict c) ∧ CameraOk py c) ∨
    (readOsfmInt py v = .error .paramError ∧
      ¬ ∃ cams, v = .dict cams ∧ ∀ p ∈ cams, ∃ id c, p = (Key.str id, Py.dict c) ∧ CameraOk py c) := by
  unfold readOsfmInt
  rcases repack_validate (.anyKey .str (.ty .dict)) trivial v with ⟨h1, d, rfl, hd⟩ | he
  · rw [h1, ok_bind]
    simp only
    have hdict : ∀ p ∈ d, ∃ a ca, p = (Key.str a, Py.dict ca) := by
      intro p hp
      obtain ⟨h3, h4⟩ := hd p hp
      obtain ⟨k, v⟩ := p
      cases k with
      | other n => simp [Key.isInstance] at h3
      | str a =>
        cases v with
        | dict ca => exact ⟨a, ca, rfl⟩
        | _ => simp [Conforms, Py.isInstance] at h4
    have hf : ∀ (a : Key × Py F) (d : Dict Key (Dict String (Py F))), addOsfmInt py d a =
        setRes d (stripKey a.1) (match a.2 with
          | .dict c => parseOsfmParam py c
          | _ => .error .attributeError) := by
      intro a d
      unfold addOsfmInt
      cases a.2 with
      | dict c => simp only; cases parseOsfmParam py c <;> rfl
      | _ => rfl
    rcases loop_cases (fun p => ∃ id c, p = (Key.str id, Py.dict c) ∧ CameraOk py c) hf d (by
      intro p hp
      obtain ⟨a, ca, rfl⟩ := hdict p hp
      rcases parse_cases py ca (fun x hx => hs d a ca x rfl hp hx) with ⟨h1, h2⟩ | ⟨h1, h2⟩
      · exact Or.inl ⟨h1, a, ca, rfl, h2⟩
      · refine Or.inr ⟨h1, ?_⟩
        rintro ⟨id, c, he, hc⟩
        cases he
        exact h2 hc) [] with ⟨h2, h3⟩ | ⟨h2, h3⟩
    · exact Or.inl ⟨h2, d, rfl, h3⟩
    · refine Or.inr ⟨h2, ?_⟩
      rintro ⟨d', he, h4⟩
      cases he
      exact h3 h4
  · rw [he, error_bind]
    refine Or.inr ⟨rfl, ?_⟩
    rintro ⟨d, rfl, hd⟩
    have : Conforms false (.anyKey .str (.ty .dict)) (Py.dict d) := by
      refine ⟨d, rfl, fun p hp => ?_⟩
      obtain ⟨id, c, rfl, -⟩ := hd p hp
      exact ⟨rfl, rfl⟩
    rw [(validate_iff (.anyKey .str (.ty .dict)) trivial _).2 this] at he
    cases he

/-- C86 (part): a reconstruction file is read exactly if it has the form of the schema and the dictionary of each camera is right, and else
`ParamError` is raised, if the projection types are strings.  Missing: files with other projection types (`C86_type_fails`). -/
theorem C86_reconstruction_partial (py : PyFuns F) (pose : Py F → Py F → X) (json : Py F) (hok : FileOk json) (hs : TypesAreStrings json) :
    ((∃ r, readOsfm py pose json = .ok r) ↔ Conforms false osfmSchema json ∧
      ∃ root rest cams, json = .list (.dict root :: rest) ∧ Dict.get? root (.str "cameras") = some (.dict cams) ∧
        ∀ p ∈ cams, ∃ id c, p = (Key.str id, Py.dict c) ∧ CameraOk py c) ∧
    ((∃ r, readOsfm py pose json = .ok r) ∨ readOsfm py pose json = .error .paramError) := by
  have hsch : osfmSchema.Ok := by simp [osfmSchema, Schema.Ok, Fields.Ok, Schemas.Ok, Schemas.ofList, Fields.ofList]
  unfold readOsfm
  rcases repack_validate osfmSchema hsch json with ⟨h1, hc⟩ | he
  · rw [h1, ok_bind]
    have hc' := hc
    obtain ⟨l, rfl, hne, hl⟩ := hc'
    obtain ⟨root, rest, rfl⟩ := List.exists_cons_of_ne_nil (hne.resolve_left (by simp))
    obtain ⟨d, rfl, ⟨v, hv, hvd⟩, ⟨sh, hsh, shots, rfl, hshots⟩, -⟩ := hl root List.mem_cons_self
    cases v with
    | dict cams =>
      simp only [getItem_dict hv, getItem_dict hsh, ok_bind]
      have hcok := (hok d rest rfl).1 cams hv
      have hx : ∃ exts, loop (addShot pose) [] shots = .ok exts := by
        have key : ∀ (acc : Dict Key (OsfmExt X)) (l : List (Key × Py F)), (∀ p ∈ l, p ∈ shots) → ∃ e, loop (addShot pose) acc l = .ok e := by
          intro acc l
          induction l generalizing acc with
          | nil => exact fun _ => ⟨acc, rfl⟩
          | cons p l ih =>
            intro hl
            obtain ⟨-, sd, hsd, ⟨r, hr, -⟩, ⟨t, ht, -⟩, ⟨c, hc, hcs⟩, -⟩ := hshots p (hl p List.mem_cons_self)
            cases c with
            | str s =>
              unfold loop
              have : addShot pose acc p = .ok (acc.set p.1 ⟨pose t r, stripV2 s⟩) := by
                unfold addShot
                rw [hsd, getItem_dict ht, getItem_dict hr, getItem_dict hc]
                rfl
              rw [this]
              exact ih _ fun q hq => hl q (List.mem_cons_of_mem _ hq)
            | _ => simp [Conforms, Py.isInstance] at hcs
        exact key [] shots fun _ h => h
      obtain ⟨exts, hx⟩ := hx
      rcases cams_cases py (.dict cams) (by
        intro cams' id c x he hm hg
        cases he
        exact hs id c x ⟨d, rest, cams, rfl, hv, Dict.get?_of_mem hcok hm⟩ hg) with ⟨⟨ints, h2⟩, h3⟩ | ⟨h2, h3⟩
      · rw [h2, hx]
        refine ⟨⟨fun _ => ⟨hc, d, rest, cams, rfl, hv, ?_⟩, fun _ => ⟨_, rfl⟩⟩, Or.inl ⟨_, rfl⟩⟩
        obtain ⟨cams', he, h3⟩ := h3
        cases he
        exact h3
      · rw [h2]
        refine ⟨⟨fun ⟨r, h⟩ => (nomatch h), fun ⟨_, root', rest', cams', he, hg, h⟩ => absurd ⟨cams', ?_, h⟩ h3⟩, Or.inr rfl⟩
        cases he
        rw [hv] at hg
        cases hg
        rfl
    | _ => simp [Conforms, Py.isInstance] at hvd
  · rw [he, error_bind]
    refine ⟨⟨fun ⟨r, h⟩ => (nomatch h), fun ⟨h, _⟩ => ?_⟩, Or.inr rfl⟩
    rw [(validate_iff _ hsch _).2 h] at he
    cases he

/-- What `read_osfm_int_param` takes as the dictionary of cameras: the `cameras` item of the only item of a list, or the file itself. -/
def Cameras (json v : Py F) : Prop :=
  (∃ root, json = .list [.dict root] ∧ Dict.get? root (.str "cameras") = some v) ∨
  (v = json ∧ ∀ root x, json = .list [.dict root] → Dict.get? root (.str "cameras") ≠ some x)

/-- C86 (part): an interior parameter file (`cameras.json`, or the only reconstruction of a file) is read exactly if its cameras are right, and
else `ParamError` is raised, if the projection types are strings and the file is not a list of one value that is not a dictionary.
Missing: those (`C86_type_fails`, `C86_root_fails`). -/
theorem C86_interior_partial (py : PyFuns F) (json v : Py F) (hv : Cameras json v) (hroot : ∀ x, json = .list [x] → ∃ root, x = .dict root)
    (hs : ∀ cams id c x, v = .dict cams → (Key.str id, Py.dict c) ∈ cams → Dict.get? c (.str "projection_type") = some x → ∃ s, x = .str s) :
    ((∃ r, readOsfmIntFile py json = .ok r) ↔ ∃ cams, v = .dict cams ∧ ∀ p ∈ cams, ∃ id c, p = (Key.str id, Py.dict c) ∧ CameraOk py c) ∧
    ((∃ r, readOsfmIntFile py json = .ok r) ∨ readOsfmIntFile py json = .error .paramError) := by
  have key : readOsfmIntFile py json = readOsfmInt py v := by
    unfold readOsfmIntFile
    rcases hv with ⟨root, rfl, hg⟩ | ⟨rfl, hno⟩
    · simp only [inCameras, Dict.has, hg, Option.isSome_some, getItem_dict hg, ok_bind]
    · split
      · rename_i root
        obtain ⟨d, rfl⟩ := hroot root rfl
        have : Dict.get? d (.str "cameras") = none := by
          cases h : Dict.get? d (.str "cameras") with
          | none => rfl
          | some x => exact absurd h (hno d x rfl)
        simp only [inCameras, Dict.has, this, Option.isSome_none]
      · rfl
  rw [key]
  rcases cams_cases py v hs with ⟨h1, h2⟩ | ⟨h1, h2⟩
  · exact ⟨⟨fun _ => h2, fun _ => h1⟩, Or.inl h1⟩
  · refine ⟨⟨fun ⟨r, h⟩ => ?_, fun h => absurd h h2⟩, Or.inr h1⟩
    rw [h1] at h
    cases h

/-- C86: a projection type that is not a string is refused with `AttributeError`. -/
theorem C86_type_fails (py : PyFuns F) (pose : Py F → Py F → X) (x : F) :
    let cams : Py F := strDict [("a", strDict [("projection_type", .int 1), ("width", .int 30), ("height", .int 20), ("focal", .float x)])]
    readOsfmIntFile py cams = .error .attributeError ∧
    readOsfm py pose (.list [strDict [("cameras", cams), ("shots", strDict []),
      ("reference_lla", strDict [("latitude", .float x), ("longitude", .float x), ("altitude", .float x)])]]) = .error .attributeError :=
  ⟨by cbv, by cbv⟩

/-- C86: an interior parameter file that is a list of one number is refused with `TypeError`. -/
theorem C86_root_fails (py : PyFuns F) (n : ℤ) : readOsfmIntFile py (.list [.int n]) = .error .typeError := rfl

/-- C86: a reconstruction with a whole number for a coordinate, written without a decimal point, is refused, although it is what the format
describes; with a decimal point it is read. -/
theorem C86_whole_fails (py : PyFuns F) (pose : Py F → Py F → X) (x : F) (n : ℤ) :
    let json (z : Py F) : Py F := .list [strDict [("cameras", strDict []), ("shots", strDict []),
      ("reference_lla", strDict [("latitude", .float x), ("longitude", .float x), ("altitude", z)])]]
    readOsfm py pose (json (.int n)) = .error .paramError ∧ readOsfm py pose (json (.float x)) = .ok ([], []) :=
  ⟨by cbv, by cbv⟩

/-- A camera that is right, and ones with an unknown type and with a parameter of another type. -/
example (x : F) : CameraOk (demoPy : PyFuns F) [(.str "projection_type", .str "fisheye"), (.str "width", .int 30), (.str "height", .int 20),
    (.str "focal", .float x), (.str "k4", .float x)] := by
  refine ⟨"fisheye", "fisheye", .fisheye, rfl, rfl, by simp [allTypes, projectionTypes], rfl, rfl, ["focal"], Or.inl ⟨rfl, rfl⟩, ?_⟩
  intro k hk
  simp only [List.map_cons, List.map_nil, List.mem_cons, List.not_mem_nil, or_false] at hk
  rcases hk with rfl | rfl | rfl | rfl | rfl <;> exact ⟨_, rfl, by decide⟩

example (x : F) : parseOsfmParam (demoPy : PyFuns F) [(.str "projection_type", .str "spherical"), (.str "width", .int 30), (.str "height", .int 20),
    (.str "focal", .float x)] = .error .paramError := by cbv

example (x : F) : parseOsfmParam (demoPy : PyFuns F) [(.str "projection_type", .str "brown"), (.str "width", .int 30), (.str "height", .int 20),
    (.str "focal", .float x), (.str "k4", .float x)] = .error .paramError := by cbv

/-- The hypotheses of `C86_reconstruction_partial` and `C86_interior_partial` are met by files. -/
example (x : F) : FileOk (demoOsfm x "v2 a" "b" "v2 a" 20 10) ∧ TypesAreStrings (demoOsfm x "v2 a" "b" "v2 a" 20 10) := by
  constructor
  · intro root rest h
    cases h
    exact ⟨fun cams h => by cases h; simp [Dict.Ok], fun cams h => by cases h; simp [Dict.Ok]⟩
  · rintro id c v ⟨root, rest, cams, h, h1, h2⟩ h3
    cases h
    cases h1
    have hm := Dict.mem_of_get? h2
    simp only [List.map_cons, List.map_nil, List.mem_cons, List.not_mem_nil, or_false, Prod.mk.injEq] at hm
    rcases hm with ⟨-, hm⟩ | ⟨-, hm⟩ <;> cases hm <;> cases h3 <;> exact ⟨_, rfl⟩

end Verif.Readers
