import Verif.Readers.Osfm
import Verif.ParamIO.IntRead

/-!
# C24: the interior parameters of OpenSfM / OpenDroneMap files
-/

set_option autoImplicit false

namespace Verif.Readers

open ParamIO

variable {F X : Type}

/-- `'cameras' in v`, for a decoded JSON value. -/
def inCameras : Py F → Res Bool
  | .dict d => .ok (Dict.has d (.str "cameras"))
  | .list l => .ok (l.any fun x => match x with | .str s => s = "cameras" | _ => false)
  | .str s => .ok ((s.splitOn "cameras").length > 1)
  | _ => .error .typeError

/-- orthority/param_io.py:286-314 `read_osfm_int_param`, from the decoded JSON. -/
def readOsfmIntFile (py : PyFuns F) (json : Py F) : Res (Dict Key (Dict String (Py F))) :=
  match json with
  | .list [root] => match inCameras root with
    | .error e => .error e
    | .ok true => do
      let cams ← root.getItem "cameras"
      readOsfmInt py cams
    | .ok false => readOsfmInt py json
  | _ => readOsfmInt py json

/-! ## Specification -/

/-- OpenSfM projection types, with the camera type that docs/file_formats/opensfm.rst:12-15 gives for them. -/
def projectionTypes : List (String × FrameType) :=
  [("perspective", .brown), ("simple_radial", .brown), ("radial", .brown), ("brown", .brown),
    ("fisheye", .fisheye)]

/-- `p` has what the camera dictionary `d` of the file says: the image size from `width` and `height`, the
focal length from `focal`, or from `focal_x` and `focal_y`, `cx` and `cy` from `c_x` and `c_y` (if they are not
there themselves), and all other parameters as they are. -/
structure OsfmSays (py : PyFuns F) (d : Dict Key (Py F)) (p : Dict String (Py F)) : Prop where
  im_size : ∃ w h, Dict.get? d (.str "width") = some w ∧ Dict.get? d (.str "height") = some h ∧
    Dict.get? p "im_size" = some (.tuple [w, h])
  focal : ∀ f, Dict.get? d (.str "focal") = some f → Dict.get? p "focal_len" = some f
  focal_xy : Dict.get? d (.str "focal") = none → ∃ x y, Dict.get? d (.str "focal_x") = some x ∧
    Dict.get? d (.str "focal_y") = some y ∧
    Dict.get? p "focal_len" = some (if py.eq x y then x else .tuple [x, y])
  cx : Dict.get? p "cx" = (Dict.get? d (.str "cx")).or (Dict.get? d (.str "c_x"))
  cy : Dict.get? p "cy" = (Dict.get? d (.str "cy")).or (Dict.get? d (.str "c_y"))
  rest : ∀ k, k ∉ ["cam_type", "projection_type", "im_size", "width", "height", "focal_len", "focal", "focal_x",
    "focal_y", "cx", "cy", "c_x", "c_y"] → Dict.get? p k = Dict.get? d (.str k)
  gone : ∀ k ∈ ["projection_type", "width", "height", "focal", "focal_x", "focal_y", "c_x", "c_y"],
    Dict.get? p k = none

/-! ## Theorems -/

/-- C24: the projection types of the documentation give the documented camera types, whatever the case and the
spaces around them; RPC and other names are refused. -/
theorem C24_types (py : PyFuns F) (s n : String) (hs : py.strip (py.lower s) = n) :
    (∀ t, (n, t) ∈ projectionTypes → fromOdm py s = some t) ∧
    (n ∉ ["perspective", "simple_radial", "radial", "brown", "fisheye", "opencv", "pinhole"] →
      fromOdm py s = none) := by
  unfold fromOdm
  simp only [hs]
  constructor
  · intro t ht
    simp only [projectionTypes, List.mem_cons, Prod.mk.injEq, List.not_mem_nil, or_false] at ht
    rcases ht with ⟨rfl, rfl⟩ | ⟨rfl, rfl⟩ | ⟨rfl, rfl⟩ | ⟨rfl, rfl⟩ | ⟨rfl, rfl⟩ <;> decide
  · intro hn
    simp only [List.mem_cons, List.not_mem_nil, or_false, not_or] at hn
    rw [if_neg (by simp; tauto)]
    unfold FrameType.parse
    rw [if_neg (by tauto), if_neg (by tauto), if_neg (by tauto), if_neg (by tauto)]

theorem used_mem {used : List String} {s : String} (hu : used = ["focal"] ∨ used = ["focal_x", "focal_y"])
    (h : s ∈ ["projection_type", "width", "height", "c_x", "c_y"] ++ used) :
    s ∈ ["projection_type", "width", "height", "focal", "focal_x", "focal_y", "c_x", "c_y", "cx", "cy",
      "sensor_size"] := by
  rcases hu with rfl | rfl <;>
    simp only [List.mem_append, List.mem_cons, List.not_mem_nil, or_false] at h ⊢ <;> tauto

set_option maxHeartbeats 1000000 in
/-- C24: when a camera dictionary is read, the parameters are what it says: the type as documented, and the
others as in `OsfmSays`. -/
theorem C24_interior (py : PyFuns F) (d : Dict Key (Py F)) (hd : Dict.Ok d) (p : Dict String (Py F))
    (h : parseOsfmParam py d = .ok p) :
    ∃ s t, Dict.get? d (.str "projection_type") = some (.str s) ∧ fromOdm py (py.lower s) = some t ∧
      Dict.get? p "cam_type" = some (.str t.name) ∧ OsfmSays py d p ∧
      ∀ k ∈ d.map Prod.fst, ∃ s, k = .str s ∧ (s ∈ ["projection_type", "width", "height", "focal", "focal_x",
        "focal_y", "c_x", "c_y", "cx", "cy", "sensor_size"] ∨ s ∈ coefficients t) := by
  unfold parseOsfmParam at h
  cases hty : Dict.get? d (.str "projection_type") with
  | none => rw [hty] at h; simp at h
  | some ty =>
  cases hw : Dict.get? d (.str "width") with
  | none => rw [hty, hw] at h; simp at h
  | some w =>
  cases hh : Dict.get? d (.str "height") with
  | none => rw [hty, hw, hh] at h; simp at h
  | some ht =>
  rw [hty, hw, hh] at h
  cases ty with
  | str s =>
    simp only at h
    cases hf : fromOdm py (py.lower s) with
    | none => rw [hf] at h; simp at h
    | some t =>
      rw [hf] at h
      simp only at h
      cases hfo : osfmFocal py d with
      | none => rw [hfo] at h; simp at h
      | some fu =>
        obtain ⟨focal, used⟩ := fu
        rw [hfo] at h
        simp only at h
        refine ⟨s, t, rfl, hf, ?_⟩
        have hused : used = ["focal"] ∨ used = ["focal_x", "focal_y"] := by
          unfold osfmFocal at hfo
          cases h1 : Dict.get? d (.str "focal") with
          | some f => rw [h1] at hfo; simp only [Option.some.injEq, Prod.mk.injEq] at hfo; exact Or.inl hfo.2.symm
          | none =>
            rw [h1] at hfo
            cases h2 : Dict.get? d (.str "focal_x") with
            | none => rw [h2] at hfo; simp at hfo
            | some x =>
              cases h3 : Dict.get? d (.str "focal_y") with
              | none => rw [h2, h3] at hfo; simp at hfo
              | some y =>
                rw [h2, h3] at hfo
                simp only [Option.some.injEq, Prod.mk.injEq] at hfo
                exact Or.inr hfo.2.symm
        let P : Key → Bool := fun k =>
          decide (k ∉ (["projection_type", "width", "height", "c_x", "c_y"] ++ used).map Key.str)
        have key : ∃ q : Dict String (Py F),
            Dict.get? q "cam_type" = some (.str t.name) ∧ Dict.get? q "im_size" = some (.tuple [w, ht]) ∧
            Dict.get? q "focal_len" = some focal ∧ Dict.get? q "cx" = Dict.get? d (.str "c_x") ∧
            Dict.get? q "cy" = Dict.get? d (.str "c_y") ∧
            (∀ k, k ∉ ["cam_type", "im_size", "focal_len", "cx", "cy"] → Dict.get? q k = none) ∧
            (if (d.filter fun q => P q.1).any fun q => !q.1.str?.any t.optKeys.contains
              then (.error .paramError : Res (Dict String (Py F)))
              else .ok (q.update ((d.filter fun q => P q.1).filterMap
                  fun q => q.1.str?.map fun k => (k, q.2)))) = .ok p := by
          cases hx : Dict.get? d (.str "c_x") <;> cases hy : Dict.get? d (.str "c_y") <;>
            simp only [hx, hy] at h
          · refine ⟨_, rfl, rfl, rfl, rfl, rfl, ?_, h⟩
            intro k hk
            simp only [List.mem_cons, not_or] at hk
            simp only [Dict.get?_cons, Dict.get?_nil]
            rw [if_neg (Ne.symm hk.1), if_neg (Ne.symm hk.2.1), if_neg (Ne.symm hk.2.2.1)]
          · refine ⟨_, rfl, rfl, rfl, rfl, rfl, ?_, h⟩
            intro k hk
            simp only [List.mem_cons, not_or] at hk
            rw [Dict.get?_set, if_neg (Ne.symm hk.2.2.2.2.1)]
            simp only [Dict.get?_cons, Dict.get?_nil]
            rw [if_neg (Ne.symm hk.1), if_neg (Ne.symm hk.2.1), if_neg (Ne.symm hk.2.2.1)]
          · refine ⟨_, rfl, rfl, rfl, rfl, rfl, ?_, h⟩
            intro k hk
            simp only [List.mem_cons, not_or] at hk
            rw [Dict.get?_set, if_neg (Ne.symm hk.2.2.2.1)]
            simp only [Dict.get?_cons, Dict.get?_nil]
            rw [if_neg (Ne.symm hk.1), if_neg (Ne.symm hk.2.1), if_neg (Ne.symm hk.2.2.1)]
          · refine ⟨_, rfl, rfl, rfl, rfl, rfl, ?_, h⟩
            intro k hk
            simp only [List.mem_cons, not_or] at hk
            rw [Dict.get?_set, if_neg (Ne.symm hk.2.2.2.2.1), Dict.get?_set, if_neg (Ne.symm hk.2.2.2.1)]
            simp only [Dict.get?_cons, Dict.get?_nil]
            rw [if_neg (Ne.symm hk.1), if_neg (Ne.symm hk.2.1), if_neg (Ne.symm hk.2.2.1)]
        obtain ⟨q, h1, h2, h3, h4, h5, h6, h7⟩ := key
        have hany : ((d.filter fun q => P q.1).any fun q => !q.1.str?.any t.optKeys.contains) = false := by
          by_contra hc
          rw [Bool.not_eq_false] at hc
          rw [if_pos hc] at h7
          exact absurd h7 (by simp)
        rw [if_neg (by rw [hany]; simp)] at h7
        have hp := Except.ok.inj h7
        have hopt := (any_not_opt P t d).1 hany
        have hget : ∀ k, Dict.get? p k =
            ((if P (.str k) then Dict.get? d (.str k) else none).or (Dict.get? q k)) := by
          intro k
          rw [← hp, Dict.get?_update _ _ (ok_strItems P hd), get?_strItems P]
        have hno : ∀ k, k ∈ ["cam_type", "im_size", "focal_len", "projection_type", "width", "height", "focal",
            "focal_x", "focal_y", "c_x", "c_y"] →
            (if P (.str k) then Dict.get? d (.str k) else none) = none := by
          intro k hk
          by_cases hP : P (.str k) = true
          · rw [if_pos hP]
            cases hg : Dict.get? d (.str k) with
            | none => rfl
            | some v =>
              obtain ⟨s', hs', ho⟩ := hopt _ (Dict.mem_of_get? hg) hP
              simp only [Key.str.injEq] at hs'
              subst hs'
              exfalso
              revert ho
              simp only [List.mem_cons, List.not_mem_nil, or_false] at hk
              rcases hk with rfl | rfl | rfl | rfl | rfl | rfl | rfl | rfl | rfl | rfl | rfl <;> cases t <;> decide
          · rw [if_neg hP]
        have hyes : ∀ k, k ∉ ["projection_type", "width", "height", "focal", "focal_x", "focal_y", "c_x", "c_y"] →
            P (.str k) = true := by
          intro k hk
          simp only [List.mem_cons, List.not_mem_nil, or_false, not_or] at hk
          rcases hused with hu | hu <;> simp only [P, hu] <;> simp <;> tauto
        refine ⟨?_, ⟨⟨w, ht, hw, hh, ?_⟩, ?_, ?_, ?_, ?_, ?_, ?_⟩, ?_⟩
        · rw [hget, hno _ (by decide), h1]; rfl
        · rw [hget, hno _ (by decide), h2]; rfl
        · intro f hf'
          rw [hget, hno _ (by decide), h3]
          unfold osfmFocal at hfo
          rw [hf'] at hfo
          simp only [Option.some.injEq, Prod.mk.injEq] at hfo
          rw [hfo.1]; rfl
        · intro hn
          unfold osfmFocal at hfo
          rw [hn] at hfo
          cases hx : Dict.get? d (.str "focal_x") with
          | none => rw [hx] at hfo; simp at hfo
          | some x =>
            cases hy : Dict.get? d (.str "focal_y") with
            | none => rw [hx, hy] at hfo; simp at hfo
            | some y =>
              rw [hx, hy] at hfo
              simp only [Option.some.injEq, Prod.mk.injEq] at hfo
              refine ⟨x, y, rfl, rfl, ?_⟩
              rw [hget, hno _ (by decide), h3, ← hfo.1]; rfl
        · rw [hget, if_pos (hyes _ (by decide)), h4]
        · rw [hget, if_pos (hyes _ (by decide)), h5]
        · intro k hk
          simp only [List.mem_cons, List.not_mem_nil, or_false, not_or] at hk
          rw [hget, if_pos (hyes _ (by simp; tauto)), h6 k (by simp; tauto)]
          simp
        · intro k hk
          rw [hget, hno k, h6]
          · rfl
          · simp only [List.mem_cons, List.not_mem_nil, or_false] at hk
            rcases hk with rfl | rfl | rfl | rfl | rfl | rfl | rfl | rfl <;> decide
          · simp only [List.mem_cons, List.not_mem_nil, or_false] at hk ⊢
            tauto
        · intro k hk
          obtain ⟨r, hr, rfl⟩ := List.mem_map.1 hk
          by_cases hP : P r.1 = true
          · obtain ⟨s', hs', ho⟩ := hopt r hr hP
            refine ⟨s', hs', ?_⟩
            rcases (optKeys_iff t s').1 ho with ho | ho
            · left; simp only [List.mem_cons, List.not_mem_nil, or_false] at ho ⊢; tauto
            · exact Or.inr ho
          · have hm : r.1 ∈ (["projection_type", "width", "height", "c_x", "c_y"] ++ used).map Key.str := by
              by_contra hm
              exact hP (by simpa [P] using hm)
            obtain ⟨s', hs', he⟩ := List.mem_map.1 hm
            refine ⟨s', he.symm, Or.inl ?_⟩
            exact used_mem hused hs'
  | _ => simp at h

/-- C24: `read_osfm_int_param` gives the same interior parameters as `OsfmReader` for a file with one
reconstruction that the latter reads. -/
theorem C24_same_interior (py : PyFuns F) (pose : Py F → Py F → X) (root : Py F)
    (ints : Dict Key (Dict String (Py F))) (exts : Dict Key (OsfmExt X))
    (h : readOsfm py pose (.list [root]) = .ok (ints, exts)) : readOsfmIntFile py (.list [root]) = .ok ints := by
  unfold readOsfm at h
  obtain ⟨u, -, h⟩ := bind_ok h
  simp only at h
  obtain ⟨cams, hcams, h⟩ := bind_ok h
  obtain ⟨ints', hi, h⟩ := bind_ok h
  obtain ⟨shots, hs, h⟩ := bind_ok h
  have hii : ints' = ints := by
    cases shots with
    | dict d =>
      obtain ⟨e, -, h⟩ := bind_ok h
      simp only [Except.ok.injEq, Prod.mk.injEq] at h
      exact h.1
    | _ => simp at h
  subst hii
  obtain ⟨d, rfl, hd⟩ := getItem_ok hcams
  unfold readOsfmIntFile
  simp only [inCameras, Dict.has, hd, Option.isSome_some, getItem_dict hd, ok_bind]
  exact hi

/-- A reconstruction with one camera and one shot. -/
def demoRecon (x : F) (shot : String) : Py F :=
  let cam : Py F := strDict [("projection_type", .str "brown"), ("width", .int 30), ("height", .int 20),
    ("focal_x", .float x), ("focal_y", .float x), ("c_x", .float x), ("k1", .float x)]
  let v : Py F := .list [.float x, .float x, .float x]
  strDict [("cameras", strDict [("a", cam)]),
    ("shots", strDict [(shot, strDict [("rotation", v), ("translation", v), ("camera", .str "a")])]),
    ("reference_lla", strDict [("latitude", .float x), ("longitude", .float x), ("altitude", .float x)])]

example (x : F) : readOsfm demoPy (fun _ _ => ()) (.list [demoRecon x "a.tif"]) =
    .ok ([(.str "a", demoInt x 20)], [(.str "a.tif", ⟨(), "a"⟩)]) := by cbv

/-- C24: a file with more than one reconstruction is read without an error, but the shots of all but the first
are dropped; and `read_osfm_int_param` refuses the file. -/
theorem C24_reconstructions_fails (x : F) :
    readOsfm demoPy (fun _ _ => ()) (.list [demoRecon x "a.tif", demoRecon x "b.tif"]) =
      .ok ([(.str "a", demoInt x 20)], [(.str "a.tif", ⟨(), "a"⟩)]) ∧
    readOsfmIntFile demoPy (.list [demoRecon x "a.tif", demoRecon x "b.tif"]) = .error .paramError :=
  ⟨by cbv, by cbv⟩

/-- The hypotheses of `C24_interior` are met by the camera of the example, with two different focal lengths. -/
example : parseOsfmParam (F := ℤ) ⟨id, id, fun a b => match a, b with | .float x, .float y => x == y | _, _ => false⟩
    [(.str "projection_type", .str "perspective"), (.str "width", .int 30), (.str "height", .int 20),
      (.str "focal_x", .float 1), (.str "focal_y", .float 2), (.str "c_y", .float 3), (.str "k2", .float 4)] =
    .ok [("cam_type", .str "brown"), ("im_size", .tuple [.int 30, .int 20]),
      ("focal_len", .tuple [.float 1, .float 2]), ("cy", .float 3), ("k2", .float 4)] := by cbv

end Verif.Readers
