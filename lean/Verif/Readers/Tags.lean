import Mathlib.Data.List.Induction
import Verif.Readers.Pool

/-!
# RPC parameters and GCPs in image tags (C74)
-/

set_option autoImplicit false
set_option linter.unusedSectionVars false

namespace Verif.Readers

section
variable {K C A : Type} [DecidableEq C]

/-- A rasterio `GroundControlPoint`. -/
structure TagGcp (K : Type) where
  row : K
  col : K
  x : K
  y : K
  z : K
  id : Option String
  info : Option String

/-- What rasterio reads from an open image: size, RPCs (`A` stands for `rpc.to_dict()`), GCPs and their CRS. -/
structure TagIm (K C A : Type) where
  width : ℕ
  height : ℕ
  rpcs : Option A
  gcps : Option (List (TagGcp K))
  gcpCrs : Option C

/-- An image file: its name, and the result of opening it. -/
structure TagFile (K C A : Type) where
  name : String
  opened : Res (TagIm K C A)

/-- RPC camera parameters (of type `CameraType.rpc`). -/
structure RpcParam (A : Type) where
  imSize : ℕ × ℕ
  rpc : A

/-- A GCP dictionary. -/
structure GcpDict (K : Type) where
  ji : K × K
  xyz : K × K × K
  id : Option String
  info : Option String

/-- orthority/param_io.py:348-369 `_read_im_rpc_param`. -/
def readImRpc (f : TagFile K C A) : Res (String × RpcParam A) := do
  let im ← f.opened
  match im.rpcs with
  | none => .error .paramError
  | some r => .ok (f.name, ⟨(im.width, im.height), r⟩)

/-- orthority/param_io.py:466-495 `_read_im_gcps`: `warp` is `rasterio.warp.transform` of one point between two CRSs, the first
possibly missing; `lla` is EPSG:4979. -/
def readImGcps (warp : Option C → C → K × K × K → Res (K × K × K)) (lla : C) (f : TagFile K C A) : Res (String × List (GcpDict K)) := do
  let im ← f.opened
  match im.gcps with
  | none => .error .paramError
  | some gcps =>
    if gcps.length = 0 then .error .paramError
    else
      let xyz := gcps.map fun g => (g.x, g.y, g.z)
      let xyz ← if im.gcpCrs ≠ some lla then xyz.mapM (warp im.gcpCrs lla) else .ok xyz
      .ok (f.name, (gcps.zip xyz).map fun p => ⟨(p.1.col, p.1.row), p.2, p.1.id, p.1.info⟩)

/-! ## Specification -/

/-- What a file says about its RPC camera. -/
inductive SaysRpc : TagFile K C A → String × RpcParam A → Prop
  | mk (name : String) (im : TagIm K C A) (r : A) (h : im.rpcs = some r) : SaysRpc ⟨name, .ok im⟩ (name, ⟨(im.width, im.height), r⟩)

/-- What a file says about its GCPs: one dictionary for each GCP tag, in their order, with the pixel coordinates (column, row) and
the world coordinates in WGS84, which those in another CRS are transformed to. -/
def SaysGcps (warp : Option C → C → K × K × K → Res (K × K × K)) (lla : C) (f : TagFile K C A) (p : String × List (GcpDict K)) : Prop :=
  ∃ (im : TagIm K C A) (gcps : List (TagGcp K)), f.opened = .ok im ∧ im.gcps = some gcps ∧ gcps ≠ [] ∧ p.1 = f.name ∧
    p.2.length = gcps.length ∧
    ∀ (k : ℕ) (g : TagGcp K) (d : GcpDict K), gcps[k]? = some g → p.2[k]? = some d → d.ji = (g.col, g.row) ∧ d.id = g.id ∧ d.info = g.info ∧
      (im.gcpCrs = some lla → d.xyz = (g.x, g.y, g.z)) ∧ (im.gcpCrs ≠ some lla → warp im.gcpCrs lla (g.x, g.y, g.z) = .ok d.xyz)

/-! ## Theorems -/

theorem readImRpc_ok (f : TagFile K C A) (p : String × RpcParam A) (h : SaysRpc f p) : readImRpc f = .ok p := by
  cases h with
  | mk name im r hr =>
    have : readImRpc (⟨name, .ok im⟩ : TagFile K C A) = (match im.rpcs with
      | none => .error .paramError
      | some r => .ok (name, ⟨(im.width, im.height), r⟩)) := rfl
    rw [this, hr]

theorem mapM_ok {α β : Type} (f : α → Res β) (l : List α) (r : List β) :
    l.mapM f = .ok r ↔ r.length = l.length ∧ ∀ (k : ℕ) (a : α) (b : β), l[k]? = some a → r[k]? = some b → f a = .ok b := by
  induction l generalizing r with
  | nil =>
    constructor
    · intro h
      have : r = [] := (Except.ok.inj h).symm
      subst this
      exact ⟨rfl, fun k a b h => by simp at h⟩
    · rintro ⟨h, -⟩
      rw [List.length_nil, List.length_eq_zero_iff] at h
      subst h; rfl
  | cons x l ih =>
    rw [List.mapM_cons]
    cases hx : f x with
    | error e =>
      constructor
      · intro h; cases h
      · rintro ⟨hl, h⟩
        match r, hl with
        | b :: r, _ =>
          have := h 0 x b rfl rfl
          rw [hx] at this
          cases this
    | ok b =>
      rw [Res.ok_bind]
      cases hl : l.mapM f with
      | error e =>
        constructor
        · intro h; cases h
        · rintro ⟨hlen, h⟩
          match r, hlen with
          | b' :: r, hlen =>
            have := (ih r).2 ⟨by simpa using hlen, fun k a c h1 h2 => h (k + 1) a c (by simpa using h1) (by simpa using h2)⟩
            rw [hl] at this
            cases this
      | ok r' =>
        rw [Res.ok_bind]
        constructor
        · intro h
          have : r = b :: r' := (Except.ok.inj h).symm
          subst this
          obtain ⟨h1, h2⟩ := (ih r').1 hl
          refine ⟨by simp [h1], ?_⟩
          intro k a c ha hc
          cases k with
          | zero =>
            simp only [List.getElem?_cons_zero, Option.some.injEq] at ha hc
            subst ha hc
            exact hx
          | succ k =>
            simp only [List.getElem?_cons_succ] at ha hc
            exact h2 k a c ha hc
        · rintro ⟨hlen, h⟩
          match r, hlen with
          | c :: r, hlen =>
            have h0 := h 0 x c rfl rfl
            rw [hx] at h0
            have h1 := (ih r).2 ⟨by simpa using hlen, fun k a c h1 h2 => h (k + 1) a c (by simpa using h1) (by simpa using h2)⟩
            rw [hl] at h1
            rw [Except.ok.inj h0, Except.ok.inj h1]
            rfl

/-- Reading the GCPs of a file gives exactly what it says. -/
theorem readImGcps_iff (warp : Option C → C → K × K × K → Res (K × K × K)) (lla : C) (f : TagFile K C A) (p : String × List (GcpDict K)) :
    readImGcps warp lla f = .ok p ↔ SaysGcps warp lla f p := by
  obtain ⟨name, o⟩ := f
  cases o with
  | error e =>
    constructor
    · intro h; cases h
    · rintro ⟨im, gcps, h, -⟩; cases h
  | ok im =>
    have hread : readImGcps warp lla (⟨name, .ok im⟩ : TagFile K C A) = (match im.gcps with
      | none => .error .paramError
      | some gcps => if gcps.length = 0 then .error .paramError else do
        let xyz ← if im.gcpCrs ≠ some lla then (gcps.map fun g => (g.x, g.y, g.z)).mapM (warp im.gcpCrs lla) else
          .ok (gcps.map fun g => (g.x, g.y, g.z))
        .ok (name, (gcps.zip xyz).map fun p => ⟨(p.1.col, p.1.row), p.2, p.1.id, p.1.info⟩)) := rfl
    rw [hread]
    cases hg : im.gcps with
    | none =>
      constructor
      · intro h; cases h
      · rintro ⟨im', gcps, h, h', -⟩
        rw [← Except.ok.inj h, hg] at h'
        cases h'
    | some gcps =>
      simp only
      by_cases h0 : gcps.length = 0
      · rw [if_pos h0]
        constructor
        · intro h; cases h
        · rintro ⟨im', gcps', h, h', hne, -⟩
          rw [← Except.ok.inj h, hg] at h'
          rw [← Option.some.inj h'] at hne
          exact absurd (List.length_eq_zero_iff.1 h0) hne
      rw [if_neg h0]
      have hne : gcps ≠ [] := fun h => h0 (by rw [h]; rfl)
      -- both cases of the CRS: the list of world coordinates
      have key : ∀ (xyz : List (K × K × K)), xyz.length = gcps.length →
          ∀ q : String × List (GcpDict K),
          ((name, (gcps.zip xyz).map fun p => (⟨(p.1.col, p.1.row), p.2, p.1.id, p.1.info⟩ : GcpDict K)) = q ↔
            q.1 = name ∧ q.2.length = gcps.length ∧ ∀ (k : ℕ) (g : TagGcp K) (d : GcpDict K), gcps[k]? = some g → q.2[k]? = some d →
              d.ji = (g.col, g.row) ∧ d.id = g.id ∧ d.info = g.info ∧ xyz[k]? = some d.xyz) := by
        intro xyz hl q
        constructor
        · rintro rfl
          refine ⟨rfl, by simp [hl], ?_⟩
          intro k g d hk hd
          have hkl : k < xyz.length := by
            have := (List.getElem?_eq_some_iff.1 hk).1
            omega
          have hz : (gcps.zip xyz)[k]? = some (g, xyz[k]) := by
            rw [List.getElem?_zip_eq_some]
            exact ⟨hk, List.getElem?_eq_getElem hkl⟩
          simp only [List.getElem?_map, hz, Option.map_some, Option.some.injEq] at hd
          subst hd
          exact ⟨rfl, rfl, rfl, List.getElem?_eq_getElem hkl⟩
        · rintro ⟨h1, h2, h3⟩
          obtain ⟨q1, q2⟩ := q
          simp only at h1 h2 h3
          subst h1
          congr 1
          apply List.ext_getElem?
          intro k
          by_cases hk : k < gcps.length
          · have hz : (gcps.zip xyz)[k]? = some (gcps[k], xyz[k]'(by omega)) := by
              rw [List.getElem?_zip_eq_some]
              exact ⟨List.getElem?_eq_getElem hk, List.getElem?_eq_getElem (by omega)⟩
            have hq : q2[k]? = some (q2[k]'(by omega)) := List.getElem?_eq_getElem (by omega)
            obtain ⟨a, b, c, d⟩ := h3 k _ _ (List.getElem?_eq_getElem hk) hq
            rw [List.getElem?_eq_getElem (show k < xyz.length by omega)] at d
            rw [List.getElem?_map, hz, hq]
            simp only [Option.map_some, Option.some.injEq]
            rw [← a, Option.some.inj d, ← b, ← c]
          · rw [List.getElem?_eq_none (by simp; omega), List.getElem?_eq_none (by omega)]
      have hsays : SaysGcps warp lla (⟨name, .ok im⟩ : TagFile K C A) p ↔ p.1 = name ∧ p.2.length = gcps.length ∧
          ∀ (k : ℕ) (g : TagGcp K) (d : GcpDict K), gcps[k]? = some g → p.2[k]? = some d → d.ji = (g.col, g.row) ∧ d.id = g.id ∧ d.info = g.info ∧
          (im.gcpCrs = some lla → d.xyz = (g.x, g.y, g.z)) ∧
          (im.gcpCrs ≠ some lla → warp im.gcpCrs lla (g.x, g.y, g.z) = .ok d.xyz) := by
        constructor
        · rintro ⟨im', gcps', h, h', -, r⟩
          rw [← Except.ok.inj h] at h' r
          rw [hg] at h'
          rw [← Option.some.inj h'] at r
          exact r
        · intro r
          exact ⟨im, gcps, rfl, hg, hne, r⟩
      rw [hsays]
      by_cases hc : im.gcpCrs = some lla
      · rw [if_neg (not_not.2 hc), Res.ok_bind]
        have hk := key (gcps.map fun g => (g.x, g.y, g.z)) (by simp) p
        rw [show (Except.ok (name, _) = (Except.ok p : Res _)) ↔ _ from Except.ok.injEq _ _ ▸ hk]
        constructor
        · rintro ⟨a, b, c⟩
          refine ⟨a, b, fun k g d h1 h2 => ?_⟩
          obtain ⟨c1, c2, c3, c4⟩ := c k g d h1 h2
          rw [List.getElem?_map, h1] at c4
          exact ⟨c1, c2, c3, fun _ => (Option.some.inj c4).symm, fun hn => absurd hc hn⟩
        · rintro ⟨a, b, c⟩
          refine ⟨a, b, fun k g d h1 h2 => ?_⟩
          obtain ⟨c1, c2, c3, c4, -⟩ := c k g d h1 h2
          refine ⟨c1, c2, c3, ?_⟩
          rw [List.getElem?_map, h1, c4 hc]
          rfl
      · rw [if_pos hc]
        constructor
        · intro h
          cases hm : (gcps.map fun g => (g.x, g.y, g.z)).mapM (warp im.gcpCrs lla) with
          | error e => rw [hm] at h; cases h
          | ok xyz =>
            rw [hm, Res.ok_bind] at h
            obtain ⟨hl, hw⟩ := (mapM_ok _ _ _).1 hm
            rw [List.length_map] at hl
            obtain ⟨a, b, c⟩ := (key xyz hl p).1 (Except.ok.inj h)
            refine ⟨a, b, fun k g d h1 h2 => ?_⟩
            obtain ⟨c1, c2, c3, c4⟩ := c k g d h1 h2
            exact ⟨c1, c2, c3, fun hn => absurd hn hc, fun _ => hw k (g.x, g.y, g.z) d.xyz (by rw [List.getElem?_map, h1]; rfl) c4⟩
        · rintro ⟨a, b, c⟩
          have hm : (gcps.map fun g => (g.x, g.y, g.z)).mapM (warp im.gcpCrs lla) = .ok (p.2.map GcpDict.xyz) := by
            rw [mapM_ok]
            refine ⟨by simp [b], ?_⟩
            intro k q r h1 h2
            rw [List.getElem?_map, Option.map_eq_some_iff] at h1 h2
            obtain ⟨g, hgk, rfl⟩ := h1
            obtain ⟨d, hdk, rfl⟩ := h2
            exact (c k g d hgk hdk).2.2.2.2 hc
          rw [hm, Res.ok_bind]
          congr 1
          refine (key _ (by simp [b]) p).2 ⟨a, b, fun k g d h1 h2 => ?_⟩
          obtain ⟨c1, c2, c3, -⟩ := c k g d h1 h2
          exact ⟨c1, c2, c3, by rw [List.getElem?_map, h2]; rfl⟩

theorem readsTo_forall {File R : Type} (read : File → Res (String × R)) (files : List File) (l : List (String × R))
    (h : List.Forall₂ (fun f p => read f = .ok p) files l) : ReadsTo read files l none := by
  induction h with
  | nil => exact .nil
  | cons h _ ih => exact .ok h ih

theorem readsTo_error {File R : Type} (read : File → Res (String × R)) (files after : List File) (f : File) (l : List (String × R)) (e : PyErr)
    (h : List.Forall₂ (fun f p => read f = .ok p) files l) (he : read f = .error e) : ReadsTo read (files ++ f :: after) l (some e) := by
  induction h with
  | nil => exact .fail he
  | cons h _ ih => exact .ok h ih

theorem ofItems_mem {R : Type} (l : List (String × R)) (n : String) (p : R) (h : (Dict.ofItems l).get? n = some p) : (n, p) ∈ l := by
  induction l using List.reverseRecOn with
  | nil => cases h
  | append_singleton l q ih =>
    rw [ofItems_append_one, Dict.get?_set] at h
    rw [List.mem_append, List.mem_singleton]
    split_ifs at h with h1
    · right
      rw [← h1, ← Option.some.inj h]
    · exact Or.inl (ih h)

/-- A run that returns has read all files, and each entry is from one of them. -/
theorem readsTo_sound {File R : Type} {read : File → Res (String × R)} {kept : List PyErr} {files : List File} {s : Pool R}
    (hs : Reach read kept files s) {d : Dict String R} (hr : s.out = some (.ok d)) :
    (∀ n p, d.get? n = some p → ∃ f ∈ files, read f = .ok (n, p)) ∧ ∀ f ∈ files, ∃ p, read f = .ok p := by
  have inv := reach_inv hs
  rcases inv.out _ hr with ⟨h1, h2⟩ | ⟨e, f, hf, hfe, h⟩
  · obtain ⟨l, hl, -, hl2, hl3⟩ := inv.acc
    rw [Except.ok.inj h1, hl3]
    constructor
    · intro n p hn
      obtain ⟨i, hi⟩ := List.mem_iff_getElem?.1 (ofItems_mem l n p hn)
      obtain ⟨f, hf, hp⟩ := hl2 i _ hi
      exact ⟨f, List.mem_of_getElem? hf, hp⟩
    · intro f hf
      obtain ⟨i, hi⟩ := List.mem_iff_getElem?.1 hf
      have : i < l.length := by
        have := (List.getElem?_eq_some_iff.1 hi).1
        omega
      obtain ⟨f', hf', hp⟩ := hl2 i _ (List.getElem?_eq_getElem this)
      rw [hi] at hf'
      rw [Option.some.inj hf']
      exact ⟨_, hp⟩
  · cases h

/-- C74: `read_im_rpc_param` of files with different names, in whatever order threads complete, gives for each file, in their order, its
RPC and its size (width, height). -/
theorem C74_rpc (files : List (TagFile K C A)) (l : List (String × RpcParam A)) (hl : List.Forall₂ SaysRpc files l)
    (hnd : (files.map TagFile.name).Nodup) (s : Pool (RpcParam A)) (hs : Reach readImRpc keptTags files s)
    (r : Res (Dict String (RpcParam A))) (hr : s.out = some r) : r = .ok l := by
  refine C23_all_read hs hr (readsTo_forall _ _ _ (hl.imp fun f p h => readImRpc_ok f p h)) ?_
  have : files.map TagFile.name = l.map Prod.fst := by
    clear hnd hs hr
    induction hl with
    | nil => rfl
    | cons h _ ih =>
      rw [List.map_cons, List.map_cons, ih]
      cases h; rfl
  rw [← this]
  exact hnd

/-- C74: `read_im_gcps` of files with different names, in whatever order threads complete, gives for each file, in their order, its
GCPs: in the order of the tags, with column and row as pixel coordinates and the world coordinates in WGS84 with ellipsoidal height. -/
theorem C74_gcps (warp : Option C → C → K × K × K → Res (K × K × K)) (lla : C) (files : List (TagFile K C A))
    (l : List (String × List (GcpDict K))) (hl : List.Forall₂ (SaysGcps warp lla) files l)
    (hnd : (files.map TagFile.name).Nodup) (s : Pool (List (GcpDict K))) (hs : Reach (readImGcps warp lla) keptTags files s)
    (r : Res (Dict String (List (GcpDict K)))) (hr : s.out = some r) : r = .ok l := by
  refine C23_all_read hs hr (readsTo_forall _ _ _ (hl.imp fun f p h => (readImGcps_iff warp lla f p).2 h)) ?_
  have : files.map TagFile.name = l.map Prod.fst := by
    clear hnd hs hr
    induction hl with
    | nil => rfl
    | cons h _ ih =>
      rw [List.map_cons, List.map_cons, ih]
      obtain ⟨_, _, _, _, _, h, _⟩ := h
      rw [h]
  rw [← this]
  exact hnd

/-- C74: conversely, whatever `read_im_rpc_param` returns is what the files say: each entry is the RPC and the size of a file of
that name.  So nothing is returned for a file without RPCs. -/
theorem C74_rpc_sound (files : List (TagFile K C A)) (s : Pool (RpcParam A)) (hs : Reach readImRpc keptTags files s)
    (d : Dict String (RpcParam A)) (hr : s.out = some (.ok d)) :
    (∀ n p, d.get? n = some p → ∃ f ∈ files, SaysRpc f (n, p)) ∧ ∀ f ∈ files, ∃ p, SaysRpc f p := by
  have h := readsTo_sound hs hr
  have key : ∀ (f : TagFile K C A) p, readImRpc f = .ok p → SaysRpc f p := by
    intro f p hf
    obtain ⟨name, o⟩ := f
    cases o with
    | error e => cases hf
    | ok im =>
      have : readImRpc (⟨name, .ok im⟩ : TagFile K C A) = (match im.rpcs with
        | none => .error .paramError
        | some r => .ok (name, ⟨(im.width, im.height), r⟩)) := rfl
      rw [this] at hf
      cases hr : im.rpcs with
      | none => rw [hr] at hf; cases hf
      | some r =>
        rw [hr] at hf
        rw [← Except.ok.inj hf]
        exact .mk name im r hr
  exact ⟨fun n p hn => (h.1 n p hn).imp fun f ⟨h1, h2⟩ => ⟨h1, key f _ h2⟩, fun f hf => (h.2 f hf).imp fun p hp => key f p hp⟩

/-- C74: conversely, whatever `read_im_gcps` returns is what the files say. -/
theorem C74_gcps_sound (warp : Option C → C → K × K × K → Res (K × K × K)) (lla : C) (files : List (TagFile K C A))
    (s : Pool (List (GcpDict K))) (hs : Reach (readImGcps warp lla) keptTags files s)
    (d : Dict String (List (GcpDict K))) (hr : s.out = some (.ok d)) :
    (∀ n p, d.get? n = some p → ∃ f ∈ files, SaysGcps warp lla f (n, p)) ∧ ∀ f ∈ files, ∃ p, SaysGcps warp lla f p := by
  have h := readsTo_sound hs hr
  exact ⟨fun n p hn => (h.1 n p hn).imp fun f ⟨h1, h2⟩ => ⟨h1, (readImGcps_iff warp lla f _).1 h2⟩,
    fun f hf => (h.2 f hf).imp fun p hp => (readImGcps_iff warp lla f p).1 hp⟩

/-- C74: the first file, in their order, that opens and has no tags is refused with a `ParamError`. -/
theorem C74_no_tags (warp : Option C → C → K × K × K → Res (K × K × K)) (lla : C) (before after : List (TagFile K C A)) (f : TagFile K C A)
    (im : TagIm K C A) (hf : f.opened = .ok im) :
    (∀ (l : List (String × RpcParam A)) (s : Pool (RpcParam A)) (r : Res (Dict String (RpcParam A))),
      List.Forall₂ SaysRpc before l → im.rpcs = none → Reach readImRpc keptTags (before ++ f :: after) s → s.out = some r →
      r = .error .paramError) ∧
    (∀ (l : List (String × List (GcpDict K))) (s : Pool (List (GcpDict K))) (r : Res (Dict String (List (GcpDict K)))),
      List.Forall₂ (SaysGcps warp lla) before l → (im.gcps = none ∨ im.gcps = some []) →
      Reach (readImGcps warp lla) keptTags (before ++ f :: after) s → s.out = some r → r = .error .paramError) := by
  obtain ⟨name, o⟩ := f
  simp only at hf
  subst hf
  constructor
  · intro l s r hl hn hs hr
    have he : readImRpc (⟨name, .ok im⟩ : TagFile K C A) = .error .paramError := by
      have : readImRpc (⟨name, .ok im⟩ : TagFile K C A) = (match im.rpcs with
        | none => .error .paramError
        | some r => .ok (name, ⟨(im.width, im.height), r⟩)) := rfl
      rw [this, hn]
    rw [C23_first_error hs hr (readsTo_error _ before after _ l _ (hl.imp fun f p h => readImRpc_ok f p h) he)]
    rfl
  · intro l s r hl hn hs hr
    have he : readImGcps warp lla (⟨name, .ok im⟩ : TagFile K C A) = .error .paramError := by
      have hread : readImGcps warp lla (⟨name, .ok im⟩ : TagFile K C A) = (match im.gcps with
        | none => .error .paramError
        | some gcps => if gcps.length = 0 then .error .paramError else do
          let xyz ← if im.gcpCrs ≠ some lla then (gcps.map fun g => (g.x, g.y, g.z)).mapM (warp im.gcpCrs lla) else
            .ok (gcps.map fun g => (g.x, g.y, g.z))
          .ok (name, (gcps.zip xyz).map fun p => ⟨(p.1.col, p.1.row), p.2, p.1.id, p.1.info⟩)) := rfl
      rw [hread]
      rcases hn with hn | hn <;> rw [hn]
      rfl
    rw [C23_first_error hs hr (readsTo_error _ before after _ l _ (hl.imp fun f p h => (readImGcps_iff warp lla f p).2 h) he)]
    rfl

/-- C74: GCP tags without a CRS are not refused with a
`ParamError`: the transform from no CRS raises, and the read ends in `RuntimeError`. -/
theorem C74_no_crs_fails (warp : Option C → C → K × K × K → Res (K × K × K)) (lla : C) (hw : ∀ p, warp none lla p = .error .crsError)
    (f : TagFile K C A) (im : TagIm K C A) (hf : f.opened = .ok im) (g : TagGcp K) (gs : List (TagGcp K)) (hg : im.gcps = some (g :: gs))
    (hc : im.gcpCrs = none) (s : Pool (List (GcpDict K))) (hs : Reach (readImGcps warp lla) keptTags [f] s)
    (r : Res (Dict String (List (GcpDict K)))) (hr : s.out = some r) : r = .error .runtimeError := by
  obtain ⟨name, o⟩ := f
  simp only at hf
  subst hf
  have he : readImGcps warp lla (⟨name, .ok im⟩ : TagFile K C A) = .error .crsError := by
    have hread : readImGcps warp lla (⟨name, .ok im⟩ : TagFile K C A) = (match im.gcps with
      | none => .error .paramError
      | some gcps => if gcps.length = 0 then .error .paramError else do
        let xyz ← if im.gcpCrs ≠ some lla then (gcps.map fun g => (g.x, g.y, g.z)).mapM (warp im.gcpCrs lla) else
          .ok (gcps.map fun g => (g.x, g.y, g.z))
        .ok (name, (gcps.zip xyz).map fun p => ⟨(p.1.col, p.1.row), p.2, p.1.id, p.1.info⟩)) := rfl
    rw [hread, hg]
    simp only
    rw [if_neg (by simp), if_pos (by rw [hc]; simp), List.map_cons, List.mapM_cons, hc, hw]
    rfl
  rw [C23_first_error hs hr (ReadsTo.fail he)]
  rfl

end

/-! ## Concrete cases -/

/-- A warp that adds the CRS number to the longitude, and refuses to work without a CRS. -/
def exWarp : Option ℕ → ℕ → ℕ × ℕ × ℕ → Res (ℕ × ℕ × ℕ)
  | none, _, _ => .error .crsError
  | some c, _, p => .ok (p.1 + c, p.2.1, p.2.2)

def exTagFiles : List (TagFile ℕ ℕ String) :=
  [⟨"a.tif", .ok ⟨40, 30, some "rpc a", some [⟨1, 2, 10, 20, 5, some "p", none⟩, ⟨3, 4, 11, 21, 6, none, some "i"⟩], some 7⟩⟩,
   ⟨"b.tif", .ok ⟨50, 20, some "rpc b", some [⟨8, 9, 12, 22, 7, none, none⟩], some 4979⟩⟩]

example : List.Forall₂ SaysRpc exTagFiles [("a.tif", ⟨(40, 30), "rpc a"⟩), ("b.tif", ⟨(50, 20), "rpc b"⟩)] :=
  .cons (.mk "a.tif" ⟨40, 30, some "rpc a", _, some 7⟩ "rpc a" rfl) (.cons (.mk "b.tif" ⟨50, 20, some "rpc b", _, some 4979⟩ "rpc b" rfl) .nil)

def exGcpDicts : List (String × List (GcpDict ℕ)) :=
  [("a.tif", [⟨(2, 1), (17, 20, 5), some "p", none⟩, ⟨(4, 3), (18, 21, 6), none, some "i"⟩]), ("b.tif", [⟨(9, 8), (12, 22, 7), none, none⟩])]

example : List.Forall₂ (SaysGcps exWarp 4979) exTagFiles exGcpDicts := by
  refine .cons ((readImGcps_iff _ _ _ _).1 rfl) (.cons ((readImGcps_iff _ _ _ _).1 rfl) .nil)

example : (exTagFiles.map TagFile.name).Nodup := by decide

/-- A run of the two files to its end, the second file being read first. -/
example : ∃ s, Reach (readImGcps exWarp 4979) keptTags exTagFiles s ∧ s.out = some (.ok exGcpDicts) :=
  ⟨_, Reach.step (Reach.step (Reach.step (Reach.step (Reach.step Reach.init
      (.complete _ 1 _ rfl rfl)) (.complete _ 0 _ rfl rfl)) (.take _ ("a.tif", _) rfl rfl))
      (.take _ ("b.tif", _) rfl rfl)) (.finish _ rfl rfl), rfl⟩

/-- `C74_no_crs_fails`: GCPs, and no CRS. -/
example : ∃ s, Reach (readImGcps exWarp 4979) keptTags [(⟨"a.tif", .ok ⟨40, 30, none, some [⟨1, 2, 10, 20, 5, none, none⟩], none⟩⟩ : TagFile ℕ ℕ String)] s ∧
    s.out = some (.error .runtimeError) :=
  ⟨_, Reach.step (Reach.step Reach.init (.complete _ 0 _ rfl rfl)) (.fail _ .crsError rfl rfl), rfl⟩

end Verif.Readers
