import Verif.ParamIO.OtyProps

/-!
# C19 to C22: files that are written can be read back
-/

set_option autoImplicit false

namespace Verif.ParamIO

variable {F : Type} {C : Type}

theorem loop_append {α β : Type} (f : β → α → Res β) (b : β) (l l' : List α) :
    loop f b (l ++ l') = match loop f b l with
      | .error e => .error e
      | .ok b => loop f b l' := by
  induction l generalizing b with
  | nil => rfl
  | cons a l ih =>
    simp only [List.cons_append, loop]
    cases f b a with
    | error e => rfl
    | ok b' => exact ih b'

theorem get?_append_last {κ α : Type} [DecidableEq κ] {d : Dict κ α} {k : κ} (h : k ∉ d.map Prod.fst) (v : α) :
    Dict.get? (d ++ [(k, v)]) k = some v := by
  induction d with
  | nil => simp [Dict.get?]
  | cons p d ih =>
    simp only [List.map_cons, List.mem_cons, not_or] at h
    rw [List.cons_append, Dict.get?_cons, if_neg (fun e => h.1 e.symm), ih h.2]

theorem set_append_last {κ α : Type} [DecidableEq κ] {d : Dict κ α} {k : κ} (h : k ∉ d.map Prod.fst) (v w : α) :
    Dict.set (d ++ [(k, v)]) k w = d ++ [(k, w)] := by
  induction d with
  | nil => simp [Dict.set]
  | cons p d ih =>
    simp only [List.map_cons, List.mem_cons, not_or] at h
    rw [List.cons_append, Dict.set, if_neg (fun e => h.1 e.symm), ih h.2]
    rfl

/-- A python number (booleans included, as for `isinstance`). -/
def IsNum (v : Py F) : Prop := v.isInstance .int = true ∨ v.isInstance .float = true

theorem conforms_numTys (v : Py F) : Conforms false numTys v ↔ IsNum v := by
  simp [numTys, Conforms, IsNum]

/-! ## C19 -/

/-- A GCP with two numeric pixel and three numeric world coordinates, whose ID and info are JSON values
(not tuples). -/
structure Gcp.WF (g : Gcp F) : Prop where
  ji : ∃ j i, g.ji = [j, i] ∧ IsNum j ∧ IsNum i
  xyz : ∃ x y z, g.xyz = [x, y, z] ∧ IsNum x ∧ IsNum y ∧ IsNum z
  id : dumpVal g.id = g.id
  info : dumpVal g.info = g.info

theorem addFeature_gcp (d : Dict Key (List (Gcp F))) (fn : String) (g : Gcp F) (h : g.WF) :
    addFeature d (gcpFeature fn g) = match d.get? (.str fn) with
      | none => .ok (d.set (.str fn) [g])
      | some l => .ok (d.set (.str fn) (l ++ [g])) := by
  unfold gcpFeature
  rw [h.id, h.info]
  rfl

theorem loop_gcps (acc : Dict Key (List (Gcp F))) (fn : String) (hfn : Key.str fn ∉ acc.map Prod.fst)
    (l gs : List (Gcp F)) (hgs : ∀ g ∈ gs, g.WF) :
    loop addFeature (acc ++ [(.str fn, l)]) (gs.map (gcpFeature fn)) = .ok (acc ++ [(.str fn, l ++ gs)]) := by
  induction gs generalizing l with
  | nil => simp [loop]
  | cons g gs ih =>
    rw [List.map_cons, loop, addFeature_gcp _ _ _ (hgs g (List.mem_cons_self ..)), get?_append_last hfn]
    simp only
    rw [set_append_last hfn, ih _ fun g' h' => hgs g' (List.mem_cons_of_mem _ h')]
    simp

/-- The dictionary with string keys as the reader gives it, without images that have no GCPs. -/
def withGcps (d : Dict String (List (Gcp F))) : Dict Key (List (Gcp F)) :=
  (d.filter fun p => p.2 ≠ []).map fun p => (.str p.1, p.2)

theorem loop_all (d : Dict String (List (Gcp F))) (hd : Dict.Ok d) (hw : ∀ p ∈ d, ∀ g ∈ p.2, g.WF)
    (acc : Dict Key (List (Gcp F))) (hacc : ∀ k ∈ d.map Prod.fst, Key.str k ∉ acc.map Prod.fst) :
    loop addFeature acc (d.flatMap fun p => p.2.map (gcpFeature p.1)) = .ok (acc ++ withGcps d) := by
  induction d generalizing acc with
  | nil => simp [loop, withGcps]
  | cons p d ih =>
    unfold Dict.Ok at hd ih
    rw [List.map_cons, List.nodup_cons] at hd
    rw [List.flatMap_cons, loop_append]
    have hp := hw p (List.mem_cons_self ..)
    have hk : Key.str p.1 ∉ acc.map Prod.fst := hacc p.1 (by simp)
    have ih' := ih hd.2 (fun q hq => hw q (List.mem_cons_of_mem _ hq))
    cases hg : p.2 with
    | nil =>
      simp only [List.map_nil, loop]
      rw [ih' acc fun k h => hacc k (by simp [h])]
      simp [withGcps, hg]
    | cons g gs =>
      rw [hg] at hp
      simp only [List.map_cons, loop]
      rw [addFeature_gcp _ _ _ (hp g (List.mem_cons_self ..)), Dict.get?_none.2 hk]
      simp only
      rw [Dict.set_of_not_mem hk, loop_gcps acc p.1 hk _ gs fun g' h' => hp g' (List.mem_cons_of_mem _ h')]
      simp only
      rw [ih']
      · simp [withGcps, hg]
      · intro k hkd
        simp only [List.map_append, List.map_cons, List.map_nil, List.mem_append, List.mem_singleton, not_or,
          Key.str.injEq]
        refine ⟨hacc k (by simp [hkd]), ?_⟩
        rintro rfl
        exact hd.1 hkd

theorem conforms_gcps (d : Dict String (List (Gcp F))) (hw : ∀ p ∈ d, ∀ g ∈ p.2, g.WF)
    (hne : ∃ p ∈ d, p.2 ≠ []) : Conforms false gcpSchema (writeGcps d) := by
  simp only [gcpSchema, Fields.ofList, Schemas.ofList, Conforms, FieldsConform]
  refine ⟨_, rfl, ⟨_, rfl, rfl⟩, ⟨_, rfl, _, rfl, Or.inr ?_, ?_⟩, trivial⟩
  · obtain ⟨p, hp, hg⟩ := hne
    intro he
    rw [List.flatMap_eq_nil_iff] at he
    exact hg (by simpa using he p hp)
  · intro x hx
    obtain ⟨p, hp, hx⟩ := List.mem_flatMap.1 hx
    obtain ⟨g, hg, rfl⟩ := List.mem_map.1 hx
    have h := hw p hp g hg
    obtain ⟨j, i, hji, hj, hi⟩ := h.ji
    obtain ⟨x, y, z, hxyz, hx, hy, hz⟩ := h.xyz
    refine ⟨_, rfl, ⟨_, rfl, rfl⟩, ⟨_, rfl, _, rfl, ⟨_, rfl, g.ji, rfl, ?_⟩, ⟨_, rfl, rfl⟩, ⟨_, rfl, trivial⟩,
      ⟨_, rfl, trivial⟩, trivial⟩, ⟨_, rfl, _, rfl, ⟨_, rfl, rfl⟩, ⟨_, rfl, g.xyz, rfl, ?_⟩, trivial⟩, trivial⟩
    · rw [hji]
      exact ⟨j, [i], rfl, rfl, (conforms_numTys j).2 hj, (conforms_numTys i).2 hi, trivial⟩
    · rw [hxyz]
      exact ⟨x, [y, z], rfl, rfl, (conforms_numTys x).2 hx, (conforms_numTys y).2 hy,
        (conforms_numTys z).2 hz, trivial⟩

/-- C19: reading a file that `write_gcps` wrote gives back the images that have GCPs, in order, each with all
its GCPs in order and unchanged, as soon as there is any GCP. -/
theorem C19_gcps_round_trip (d : Dict String (List (Gcp F))) (hd : Dict.Ok d)
    (hw : ∀ p ∈ d, ∀ g ∈ p.2, g.WF) (hne : ∃ p ∈ d, p.2 ≠ []) :
    readOtyGcps (writeGcps d) = .ok (withGcps d) := by
  unfold readOtyGcps
  have hv := (validate_iff gcpSchema gcpSchema_ok _).2 (conforms_gcps d hw hne)
  rw [hv]
  have := loop_all d hd hw [] (by simp)
  exact this

/-- C19: when every image has GCPs, all of the dictionary comes back. -/
theorem C19_gcps_round_trip_all (d : Dict String (List (Gcp F))) (hd : Dict.Ok d)
    (hw : ∀ p ∈ d, ∀ g ∈ p.2, g.WF) (hall : ∀ p ∈ d, p.2 ≠ []) (hne : d ≠ []) :
    readOtyGcps (writeGcps d) = .ok (d.map fun p => (.str p.1, p.2)) := by
  rw [C19_gcps_round_trip d hd hw]
  · unfold withGcps
    rw [List.filter_eq_self.2]
    simpa using hall
  · obtain ⟨p, hp⟩ := List.exists_mem_of_ne_nil d hne
    exact ⟨p, hp, hall p hp⟩

/-- C19: a dictionary without any GCP is written to a file that cannot be read. -/
theorem C19_no_gcps_fails : readOtyGcps (F := F) (writeGcps []) = .error .paramError ∧
    readOtyGcps (F := F) (writeGcps [("a.tif", [])]) = .error .paramError := ⟨rfl, rfl⟩

example (x : F) : readOtyGcps (writeGcps [("b", [⟨[.int 1, .float x], [.int 1, .int 2, .float x], .str "p", .null⟩]),
    ("a", []), ("c", [⟨[.int 4, .int 5], [.float x, .float x, .int 2], .int 3, .str "i"⟩])]) =
    .ok [(.str "b", [⟨[.int 1, .float x], [.int 1, .int 2, .float x], .str "p", .null⟩]),
      (.str "c", [⟨[.int 4, .int 5], [.float x, .float x, .int 2], .int 3, .str "i"⟩])] := by
  refine C19_gcps_round_trip _ (by simp [Dict.Ok]) ?_ ⟨_, List.mem_cons_self .., by simp⟩
  intro p hp g hg
  simp only [List.mem_cons, List.not_mem_nil, or_false] at hp
  rcases hp with rfl | rfl | rfl
  · simp only [List.mem_cons, List.not_mem_nil, or_false] at hg
    subst hg
    exact ⟨⟨_, _, rfl, Or.inl rfl, Or.inr rfl⟩, ⟨_, _, _, rfl, Or.inl rfl, Or.inl rfl, Or.inr rfl⟩, rfl, rfl⟩
  · simp at hg
  · simp only [List.mem_cons, List.not_mem_nil, or_false] at hg
    subst hg
    exact ⟨⟨_, _, rfl, Or.inl rfl, Or.inl rfl⟩, ⟨_, _, _, rfl, Or.inr rfl, Or.inr rfl, Or.inl rfl⟩, rfl, rfl⟩

/-! ## C21 -/

/-- Exterior parameters with three numbers each for position and rotation, and a camera ID that is not a
tuple. -/
structure Ext.WF (e : Ext F) : Prop where
  xyz : ∃ x y z, e.xyz = [x, y, z] ∧ IsNum x ∧ IsNum y ∧ IsNum z
  opk : ∃ x y z, e.opk = [x, y, z] ∧ IsNum x ∧ IsNum y ∧ IsNum z
  camera : dumpVal e.camera = e.camera

theorem addExt_feature (d : Dict Key (Ext F)) (lla : List (Py F) → List (Py F)) (fn : String) (e : Ext F)
    (h : e.WF) : addExt d (extFeature lla fn e) = .ok (d.set (.str fn) e) := by
  unfold extFeature
  rw [h.camera]
  rfl

theorem loop_exts (lla : List (Py F) → List (Py F)) (d : Dict String (Ext F)) (hd : Dict.Ok d)
    (hw : ∀ p ∈ d, p.2.WF) (acc : Dict Key (Ext F))
    (hacc : ∀ k ∈ d.map Prod.fst, Key.str k ∉ acc.map Prod.fst) :
    loop addExt acc (d.map fun p => extFeature lla p.1 p.2) = .ok (acc ++ d.map fun p => (.str p.1, p.2)) := by
  induction d generalizing acc with
  | nil => simp [loop]
  | cons p d ih =>
    unfold Dict.Ok at hd ih
    rw [List.map_cons, List.nodup_cons] at hd
    have hk : Key.str p.1 ∉ acc.map Prod.fst := hacc p.1 (by simp)
    rw [List.map_cons, loop, addExt_feature _ _ _ _ (hw p (List.mem_cons_self ..))]
    simp only
    rw [Dict.set_of_not_mem hk, ih hd.2 (fun q hq => hw q (List.mem_cons_of_mem _ hq))]
    · simp
    · intro k hkd
      simp only [List.map_append, List.map_cons, List.map_nil, List.mem_append, List.mem_singleton, not_or,
        Key.str.injEq]
      refine ⟨hacc k (by simp [hkd]), ?_⟩
      rintro rfl
      exact hd.1 hkd

/-- C21: reading a file that `write_ext_param` wrote gives back the CRS and, in order, every image with its
position, rotation and camera ID; for a projected CRS whose string form parses to the same CRS. -/
theorem C21_ext_round_trip (lib : CrsLib C) (lla : C → List (Py F) → List (Py F)) (d : Dict String (Ext F))
    (crs : C) (hcrs : lib.isProjected crs = true) (hparse : lib.parse (lib.toString crs) = some crs)
    (hlla : ∀ l, ∃ x ls, lla crs l = x :: ls ∧ IsNum x ∧ ∀ y ∈ ls, IsNum y)
    (hd : Dict.Ok d) (hw : ∀ p ∈ d, p.2.WF) (hne : d ≠ []) :
    ∃ json, writeExt lib lla d crs = .ok json ∧
      readOtyExt lib json = .ok (crs, d.map fun p => (.str p.1, p.2)) := by
  refine ⟨_, by unfold writeExt; rw [if_neg (not_not.2 hcrs)], ?_⟩
  have hc : Conforms false extSchema (strDict [("type", Py.str "FeatureCollection"),
      ("world_crs", .str (lib.toString crs)), ("features", .list (d.map fun p => extFeature (lla crs) p.1 p.2))]) := by
    simp only [extSchema, Fields.ofList, Schemas.ofList, Conforms, FieldsConform]
    refine ⟨_, rfl, ⟨_, rfl, rfl⟩, ⟨_, rfl, rfl⟩, ⟨_, rfl, _, rfl, Or.inr (by simpa using hne), ?_⟩, trivial⟩
    intro f hf
    obtain ⟨p, hp, rfl⟩ := List.mem_map.1 hf
    have h := hw p hp
    obtain ⟨x, y, z, hxyz, hx, hy, hz⟩ := h.xyz
    obtain ⟨o, q, k, hopk, ho, hq, hk⟩ := h.opk
    obtain ⟨a, ls, hl, ha, hls⟩ := hlla p.2.xyz
    refine ⟨_, rfl, ⟨_, rfl, rfl⟩, ⟨_, rfl, _, rfl, ⟨_, rfl, rfl⟩, ⟨_, rfl, trivial⟩, ⟨_, rfl, p.2.xyz, rfl, ?_⟩,
      ⟨_, rfl, p.2.opk, rfl, ?_⟩, trivial⟩, ⟨_, rfl, _, rfl, ⟨_, rfl, rfl⟩, ⟨_, rfl, lla crs p.2.xyz, rfl, ?_⟩, trivial⟩,
      trivial⟩
    · rw [hxyz]
      exact ⟨x, [y, z], rfl, rfl, (conforms_numTys x).2 hx, (conforms_numTys y).2 hy,
        (conforms_numTys z).2 hz, trivial⟩
    · rw [hopk]
      exact ⟨o, [q, k], rfl, rfl, (conforms_numTys o).2 ho, (conforms_numTys q).2 hq,
        (conforms_numTys k).2 hk, trivial⟩
    · rw [hl]
      refine ⟨Or.inr (by simp), fun v hv => (conforms_numTys v).2 ?_⟩
      rcases List.mem_cons.1 hv with rfl | hv
      · exact ha
      · exact hls v hv
  unfold readOtyExt otyReaderInit
  rw [(validate_iff extSchema extSchema_ok _).2 hc]
  have hloop := loop_exts (lla crs) d hd hw [] (by simp)
  simp only [strDict, repack, ok_bind, List.map_cons, List.map_nil]
  rw [getItem_dict (x := .str (lib.toString crs)) rfl, ok_bind]
  simp only [hparse, ok_bind]
  rw [getItem_dict (x := .list (d.map fun p => extFeature (lla crs) p.1 p.2)) rfl, ok_bind]
  simp only [Py.items, ok_bind, hloop]
  rfl

/-- C21: exterior parameters of no image are written to a file that cannot be read. -/
theorem C21_empty_fails (lib : CrsLib C) (lla : C → List (Py F) → List (Py F)) (crs : C)
    (hcrs : lib.isProjected crs = true) : ∃ json, writeExt lib lla [] crs = .ok json ∧
      readOtyExt lib json = .error .paramError := by
  refine ⟨_, by unfold writeExt; rw [if_neg (not_not.2 hcrs)], rfl⟩

/-- C21: a geographic CRS is refused. -/
theorem C21_geographic_refused (lib : CrsLib C) (lla : C → List (Py F) → List (Py F)) (crs : C)
    (hcrs : lib.isProjected crs = false) (d : Dict String (Ext F)) :
    writeExt lib lla d crs = .error .crsError := by
  unfold writeExt
  rw [hcrs]
  rfl

example : ∃ json, writeExt (F := F) ⟨fun s => some s, fun s => s, fun _ => true⟩ (fun _ l => .int 0 :: l.drop 3)
      [("a", ⟨[.int 1, .int 2, .int 3], [.int 4, .int 5, .int 6], .null⟩)] "EPSG:32735" = .ok json ∧
    readOtyExt ⟨fun s => some s, fun s => s, fun _ => true⟩ json =
      .ok ("EPSG:32735", [(.str "a", ⟨[.int 1, .int 2, .int 3], [.int 4, .int 5, .int 6], .null⟩)]) := ⟨_, rfl, rfl⟩

end Verif.ParamIO
