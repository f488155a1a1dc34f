import Verif.Factory.Frame

/-!
# C28: RPC camera factory
-/

set_option autoImplicit false

namespace Verif.Factory

/-- RPC parameters of an image: the model (`rpc`), and the other items (`cam_type`, `im_size`). -/
structure RpcParam (M R : Type) where
  other : M
  rpc : R

/-- Functions that are not modelled here: `Path.name`, `Path.stem`, `create_camera`, and `refine_rpc`
(orthority/fit.py:49-130, see `Verif.Rpc`), with the keyword arguments of the user. -/
structure RpcEnv (M R G C : Type) where
  name : String → String
  stem : String → String
  create : RpcParam M R → Res C
  refine : R → G → Res R
  /-- `bool(gcps)`. -/
  truthy : G → Bool

/-- `RpcCameras._rpc_param_dict` and `RpcCameras._cameras`.  Cameras have no method that changes them. -/
structure RpcState (M R C : Type) where
  params : Dict String (RpcParam M R)
  cams : Dict String C

variable {M R G C : Type}

/-- orthority/factory.py:364-376 `RpcCameras.get`.  An empty parameter dictionary is not modelled: it would be
refused like a missing one. -/
def RpcEnv.get (env : RpcEnv M R G C) (s : RpcState M R C) (f : String) : Res C × RpcState M R C :=
  match byName s.params (env.name f) (env.stem f) with
  | none => (.error .paramError, s)
  | some p => match Dict.get? s.cams (env.name f) with
    | some c => (.ok c, s)
    | none => match env.create p with
      | .error e => (.error e, s)
      | .ok c => (.ok c, ⟨s.params, Dict.set s.cams (env.name f) c⟩)

/-- `gcp_dict.get(filename.name, gcp_dict.get(filename.stem, None))`, `none` if empty,
orthority/factory.py:354-356. -/
def RpcEnv.gcpsOf (env : RpcEnv M R G C) (g : Dict String G) (k : String) : Option G :=
  (byName g (env.name k) (env.stem k)).filter env.truthy

/-- orthority/factory.py:351-362: the loop of `RpcCameras.refine`, over the keys of the parameter dictionary.  An
error ends the loop and leaves the changes that were made before it. -/
def RpcEnv.refineLoop (env : RpcEnv M R G C) (g : Dict String G) :
    List String → RpcState M R C → Res Unit × RpcState M R C
  | [], s => (.ok (), s)
  | k :: ks, s => match env.gcpsOf g k with
    | none => env.refineLoop g ks s
    | some gs =>
      let s := { s with cams := Dict.erase s.cams (env.name k) }
      match Dict.get? s.params k with
      | none => (.error .keyError, s)
      | some p => match env.refine p.rpc gs with
        | .error e => (.error e, s)
        | .ok r => env.refineLoop g ks { s with params := Dict.set s.params k { p with rpc := r } }

/-- orthority/factory.py:308-362 `RpcCameras.refine` with a GCP dictionary (reading it from files is modelled in
`Verif.ParamIO` and `Verif.Readers`). -/
def RpcEnv.refineAll (env : RpcEnv M R G C) (s : RpcState M R C) (g : Dict String G) :
    Res Unit × RpcState M R C :=
  env.refineLoop g (s.params.map Prod.fst) s

/-- A call of a user. -/
inductive Call (G : Type)
  | get (f : String)
  | refine (g : Dict String G)

/-- State after a call, whether it raises or not. -/
def RpcEnv.step (env : RpcEnv M R G C) (s : RpcState M R C) : Call G → RpcState M R C
  | .get f => (env.get s f).2
  | .refine g => (env.refineAll s g).2

/-- State after a history of calls. -/
def RpcEnv.run (env : RpcEnv M R G C) (s : RpcState M R C) (hist : List (Call G)) : RpcState M R C :=
  hist.foldl env.step s

/-! ## Specification -/

/-- Keys of the parameter dictionary are file names, without directories. -/
def PlainKeys (env : RpcEnv M R G C) (d : Dict String (RpcParam M R)) : Prop :=
  Dict.Ok d ∧ ∀ k ∈ d.map Prod.fst, env.name k = k

/-- The parameters of an image after refinement with `g`. -/
def RpcEnv.refined (env : RpcEnv M R G C) (g : Dict String G) (k : String) (p : RpcParam M R) :
    Res (RpcParam M R) :=
  match env.gcpsOf g k with
  | none => .ok p
  | some gs => (env.refine p.rpc gs).map fun r => { p with rpc := r }

/-- Cached cameras under a key of the parameters are those of the current parameters. -/
structure RInv (env : RpcEnv M R G C) (s : RpcState M R C) : Prop where
  keys : PlainKeys env s.params
  fresh : ∀ k p c, Dict.get? s.params k = some p → Dict.get? s.cams k = some c → env.create p = .ok c

theorem keys_set_of_mem {α : Type} {d : Dict String α} {k : String} {p : α} (h : Dict.get? d k = some p) (q : α) :
    (Dict.set d k q).map Prod.fst = d.map Prod.fst := by
  rw [Dict.keys_set, if_pos]
  exact List.mem_map.2 ⟨_, Dict.mem_of_get? h, rfl⟩

theorem refineLoop_inv (env : RpcEnv M R G C) (g : Dict String G) (ks : List String) (s : RpcState M R C)
    (hs : RInv env s) (hks : ∀ k ∈ ks, k ∈ s.params.map Prod.fst) :
    RInv env (env.refineLoop g ks s).2 ∧
      (env.refineLoop g ks s).2.params.map Prod.fst = s.params.map Prod.fst := by
  induction ks generalizing s with
  | nil => exact ⟨hs, rfl⟩
  | cons k ks ih =>
    have hks' : ∀ k' ∈ ks, k' ∈ s.params.map Prod.fst := fun k' h => hks k' (by simp [h])
    unfold RpcEnv.refineLoop
    cases h1 : env.gcpsOf g k with
    | none => exact ih s hs hks'
    | some gs =>
      simp only
      have hk := hs.keys.2 k (hks k (by simp))
      have h2 : RInv env { s with cams := Dict.erase s.cams (env.name k) } := by
        refine ⟨hs.keys, fun k' p c hp hc => ?_⟩
        simp only [Dict.get?_erase] at hc
        split at hc
        · exact absurd hc (by simp)
        · exact hs.fresh k' p c hp hc
      cases h3 : Dict.get? s.params k with
      | none => exact ⟨h2, rfl⟩
      | some p =>
        simp only
        cases h4 : env.refine p.rpc gs with
        | error e => exact ⟨h2, rfl⟩
        | ok r =>
          simp only
          have hkeys := keys_set_of_mem h3 ({ p with rpc := r } : RpcParam M R)
          have h5 := ih ⟨Dict.set s.params k { p with rpc := r }, Dict.erase s.cams (env.name k)⟩ ?_ ?_
          · refine ⟨h5.1, h5.2.trans hkeys⟩
          · refine ⟨⟨hs.keys.1.set _ _, ?_⟩, fun k' p' c hp hc => ?_⟩
            · intro k' hk'
              rw [hkeys] at hk'
              exact hs.keys.2 k' hk'
            · simp only [Dict.get?_erase, Dict.get?_set, hk] at hp hc
              by_cases he : k = k'
              · rw [if_pos he] at hc
                exact absurd hc (by simp)
              · rw [if_neg he] at hp hc
                exact hs.fresh k' p' c hp hc
          · intro k' hk'
            rw [hkeys]
            exact hks' k' hk'

theorem step_inv (env : RpcEnv M R G C) (s : RpcState M R C) (hs : RInv env s) (c : Call G) :
    RInv env (env.step s c) ∧ (env.step s c).params.map Prod.fst = s.params.map Prod.fst := by
  cases c with
  | refine g => exact refineLoop_inv env g _ s hs (fun _ h => h)
  | get f =>
    simp only [RpcEnv.step, RpcEnv.get]
    cases h1 : byName s.params (env.name f) (env.stem f) with
    | none => exact ⟨hs, rfl⟩
    | some p =>
      simp only
      cases h2 : Dict.get? s.cams (env.name f) with
      | some c => exact ⟨hs, rfl⟩
      | none =>
        simp only
        cases h3 : env.create p with
        | error e => exact ⟨hs, rfl⟩
        | ok c =>
          refine ⟨⟨hs.keys, fun k p' c' hp hc => ?_⟩, rfl⟩
          simp only [Dict.get?_set] at hc hp
          by_cases he : env.name f = k
          · rw [if_pos he] at hc
            simp only [Option.some.injEq] at hc
            subst hc he
            unfold byName at h1
            rw [hp] at h1
            simp only [Option.some.injEq] at h1
            rw [h1]
            exact h3
          · rw [if_neg he] at hc
            exact hs.fresh k p' c' hp hc

theorem run_inv (env : RpcEnv M R G C) (s : RpcState M R C) (hs : RInv env s) (hist : List (Call G)) :
    RInv env (env.run s hist) ∧ (env.run s hist).params.map Prod.fst = s.params.map Prod.fst := by
  induction hist generalizing s with
  | nil => exact ⟨hs, rfl⟩
  | cons c hist ih =>
    have h1 := step_inv env s hs c
    have h2 := ih _ h1.1
    exact ⟨h2.1, h2.2.trans h1.2⟩

/-- C28, the part that holds: after any history of calls, `get` for a file whose name is a key of the parameters
gives the camera of the current parameters of the file (those of the last refinement).  Missing: files that are
found by their stem (`C28_stem_fails`), and keys that are paths. -/
theorem C28_current_partial (env : RpcEnv M R G C) (d : Dict String (RpcParam M R)) (hd : PlainKeys env d)
    (hist : List (Call G)) (f : String) (hf : env.name f ∈ d.map Prod.fst) :
    ∃ p, Dict.get? (env.run ⟨d, []⟩ hist).params (env.name f) = some p ∧
      (env.get (env.run ⟨d, []⟩ hist) f).1 = env.create p := by
  have h := run_inv env ⟨d, []⟩ ⟨hd, fun _ _ _ _ h => by simp [Dict.get?_nil] at h⟩ hist
  generalize env.run ⟨d, []⟩ hist = s at h
  cases hp : Dict.get? s.params (env.name f) with
  | none =>
    rw [Dict.get?_none, h.2] at hp
    exact absurd hf hp
  | some p =>
    refine ⟨p, rfl, ?_⟩
    unfold RpcEnv.get byName
    rw [hp]
    simp only
    cases hc : Dict.get? s.cams (env.name f) with
    | some c => exact (h.1.fresh _ _ _ hp hc).symm
    | none =>
      simp only
      cases hm : env.create p with
      | error e => rfl
      | ok c => rfl

/-- C28: after any history of calls, `get` for a file for which there are no parameters, by its name or its stem, raises `ParamError`. -/
theorem C28_unknown (env : RpcEnv M R G C) (d : Dict String (RpcParam M R)) (hd : PlainKeys env d)
    (hist : List (Call G)) (f : String) (hn : env.name f ∉ d.map Prod.fst) (hs : env.stem f ∉ d.map Prod.fst) :
    (env.get (env.run ⟨d, []⟩ hist) f).1 = .error .paramError := by
  have h := run_inv env ⟨d, []⟩ ⟨hd, fun _ _ _ _ h => by simp [Dict.get?_nil] at h⟩ hist
  generalize env.run ⟨d, []⟩ hist = s at h
  have h1 : Dict.get? s.params (env.name f) = none := by rw [Dict.get?_none, h.2]; exact hn
  have h2 : Dict.get? s.params (env.stem f) = none := by rw [Dict.get?_none, h.2]; exact hs
  unfold RpcEnv.get byName
  rw [h1, h2]

theorem refineLoop_params (env : RpcEnv M R G C) (g : Dict String G) (ks : List String) (s s' : RpcState M R C)
    (hnd : ks.Nodup) (h : env.refineLoop g ks s = (.ok (), s')) (k : String) :
    (k ∉ ks → Dict.get? s'.params k = Dict.get? s.params k) ∧
    (k ∈ ks → ∀ p, Dict.get? s.params k = some p →
      ∃ p', env.refined g k p = .ok p' ∧ Dict.get? s'.params k = some p') := by
  induction ks generalizing s with
  | nil =>
    simp only [RpcEnv.refineLoop, Prod.mk.injEq, true_and] at h
    subst h
    exact ⟨fun _ => rfl, fun h => by simp at h⟩
  | cons k0 ks ih =>
    unfold RpcEnv.refineLoop at h
    rw [List.nodup_cons] at hnd
    cases h1 : env.gcpsOf g k0 with
    | none =>
      rw [h1] at h
      have h2 := ih s hnd.2 h
      refine ⟨fun hk => h2.1 (by simp at hk; exact hk.2), fun hk p hp => ?_⟩
      by_cases he : k = k0
      · subst he
        refine ⟨p, by simp [RpcEnv.refined, h1], ?_⟩
        rw [h2.1 hnd.1]; exact hp
      · exact h2.2 (by simpa [he] using hk) p hp
    | some gs =>
      rw [h1] at h
      simp only at h
      cases h3 : Dict.get? s.params k0 with
      | none => rw [h3] at h; exact absurd h (by simp)
      | some p0 =>
        rw [h3] at h
        simp only at h
        cases h4 : env.refine p0.rpc gs with
        | error e => rw [h4] at h; exact absurd h (by simp)
        | ok r =>
          rw [h4] at h
          simp only at h
          have h2 := ih _ hnd.2 h
          simp only [Dict.get?_set] at h2
          refine ⟨fun hk => ?_, fun hk p hp => ?_⟩
          · simp only [List.mem_cons, not_or] at hk
            rw [h2.1 hk.2, if_neg (Ne.symm hk.1)]
          · by_cases he : k = k0
            · subst he
              rw [h3, Option.some.injEq] at hp
              subst hp
              refine ⟨{ p0 with rpc := r }, by simp [RpcEnv.refined, h1, h4, Except.map], ?_⟩
              rw [h2.1 hnd.1, if_pos rfl]
            · refine h2.2 (by simpa [he] using hk) p ?_
              rw [if_neg (Ne.symm he)]; exact hp

theorem refine_params (env : RpcEnv M R G C) (s s' : RpcState M R C) (hs : Dict.Ok s.params)
    (g : Dict String G) (h : env.refineAll s g = (.ok (), s')) (k : String) (p : RpcParam M R)
    (hp : Dict.get? s.params k = some p) :
    ∃ p', env.refined g k p = .ok p' ∧ Dict.get? s'.params k = some p' :=
  (refineLoop_params env g _ s s' hs h k).2 (List.mem_map.2 ⟨_, Dict.mem_of_get? hp, rfl⟩) p hp

/-- The GCPs that a dictionary has for a key of the parameters: those under the file name, else those under the
stem. -/
def GcpsFor (env : RpcEnv M R G C) (g : Dict String G) (k : String) (gs : G) : Prop :=
  Dict.get? g (env.name k) = some gs ∨ (Dict.get? g (env.name k) = none ∧ Dict.get? g (env.stem k) = some gs)

theorem gcpsOf_iff (env : RpcEnv M R G C) (g : Dict String G) (k : String) (gs : G) :
    env.gcpsOf g k = some gs ↔ GcpsFor env g k gs ∧ env.truthy gs = true := by
  unfold RpcEnv.gcpsOf GcpsFor byName
  rw [Option.filter_eq_some_iff]
  cases h : Dict.get? g (env.name k) <;> simp

/-- C28: when `refine` returns, the model of each image is the one refined with its GCPs, which are those under
its name, or else under its stem; the parameters are unchanged for an image without GCPs, or with an empty list
of them. -/
theorem C28_refine_params (env : RpcEnv M R G C) (s s' : RpcState M R C) (hs : Dict.Ok s.params)
    (g : Dict String G) (h : env.refineAll s g = (.ok (), s')) (k : String) (p : RpcParam M R)
    (hp : Dict.get? s.params k = some p) :
    (∀ gs, GcpsFor env g k gs → env.truthy gs = true →
      ∃ r, env.refine p.rpc gs = .ok r ∧ Dict.get? s'.params k = some { p with rpc := r }) ∧
    ((∀ gs, GcpsFor env g k gs → env.truthy gs = false) → Dict.get? s'.params k = some p) := by
  obtain ⟨p', h1, h2⟩ := refine_params env s s' hs g h k p hp
  unfold RpcEnv.refined at h1
  constructor
  · intro gs hg ht
    rw [(gcpsOf_iff env g k gs).2 ⟨hg, ht⟩] at h1
    simp only at h1
    cases hr : env.refine p.rpc gs with
    | error e => rw [hr] at h1; exact absurd h1 (by simp [Except.map])
    | ok r =>
      rw [hr] at h1
      simp only [Except.map, Except.ok.injEq] at h1
      exact ⟨r, rfl, by rw [h2, h1]⟩
  · intro hn
    cases hg : env.gcpsOf g k with
    | some gs =>
      obtain ⟨h3, h4⟩ := (gcpsOf_iff env g k gs).1 hg
      rw [hn gs h3] at h4
      exact absurd h4 (by simp)
    | none =>
      rw [hg] at h1
      simp only [Except.ok.injEq] at h1
      rw [h2, h1]

/-- C28, the part that holds, in full: after a history of calls that ends with a successful `refine`, `get` for a
file whose name is a key gives the camera of the model from before refined with the GCPs of the file. -/
theorem C28_refined_partial (env : RpcEnv M R G C) (d : Dict String (RpcParam M R)) (hd : PlainKeys env d)
    (hist : List (Call G)) (g : Dict String G) (s' : RpcState M R C) (f : String) (gs : G) (p : RpcParam M R)
    (hp : Dict.get? (env.run ⟨d, []⟩ hist).params (env.name f) = some p)
    (hgs : GcpsFor env g (env.name f) gs) (ht : env.truthy gs = true)
    (h : env.refineAll (env.run ⟨d, []⟩ hist) g = (.ok (), s')) :
    ∃ r, env.refine p.rpc gs = .ok r ∧ (env.get s' f).1 = env.create { p with rpc := r } := by
  have hg := (gcpsOf_iff env g (env.name f) gs).2 ⟨hgs, ht⟩
  have hinv := run_inv env ⟨d, []⟩ ⟨hd, fun _ _ _ _ h => by simp [Dict.get?_nil] at h⟩ hist
  obtain ⟨p', hp1, hp2⟩ := refine_params env _ s' hinv.1.keys.1 g h _ p hp
  have hrun : env.run ⟨d, []⟩ (hist ++ [.refine g]) = s' := by
    simp only [RpcEnv.run, List.foldl_append, List.foldl_cons, List.foldl_nil, RpcEnv.step]
    rw [show List.foldl env.step ⟨d, []⟩ hist = env.run ⟨d, []⟩ hist from rfl, h]
  have hf : env.name f ∈ d.map Prod.fst := by
    have := hinv.2
    simp only at this
    rw [← this]
    exact List.mem_map.2 ⟨_, Dict.mem_of_get? hp, rfl⟩
  obtain ⟨q, hq1, hq2⟩ := C28_current_partial env d hd (hist ++ [.refine g]) f hf
  rw [hrun] at hq1 hq2
  rw [hp2, Option.some.injEq] at hq1
  subst hq1
  unfold RpcEnv.refined at hp1
  rw [hg] at hp1
  simp only at hp1
  cases hr : env.refine p.rpc gs with
  | error e => rw [hr] at hp1; exact absurd hp1 (by simp [Except.map])
  | ok r =>
    rw [hr] at hp1
    simp only [Except.map, Except.ok.injEq] at hp1
    exact ⟨r, rfl, by rw [hq2, ← hp1]⟩

/-- A factory with models that are numbers, which refinement adds a number to. -/
def exRpc : RpcEnv Unit ℕ ℕ ℕ where
  name f := if f = "d/b.tif" then "b.tif" else f
  stem f := if f = "a.tif" then "a" else if f = "b.tif" ∨ f = "d/b.tif" then "b" else f
  create p := .ok p.rpc
  refine r g := .ok (r + g)
  truthy g := g ≠ 0

/-- C28: with a parameter key without the file extension, `get` after `refine` still gives the camera from before
the refinement, though the parameters are refined. -/
theorem C28_stem_fails :
    (exRpc.get ⟨[("a", ⟨(), 1⟩)], []⟩ "a.tif").1 = .ok 1 ∧
    (exRpc.run ⟨[("a", ⟨(), 1⟩)], []⟩ [.get "a.tif", .refine [("a", 10)]]).params.map (fun p => p.2.rpc) = [11] ∧
    (exRpc.get (exRpc.run ⟨[("a", ⟨(), 1⟩)], []⟩ [.get "a.tif", .refine [("a", 10)]]) "a.tif").1 = .ok 1 ∧
    (exRpc.get (exRpc.run ⟨[("a", ⟨(), 1⟩)], []⟩ [.refine [("a", 10)]]) "a.tif").1 = .ok 11 :=
  ⟨rfl, rfl, rfl, rfl⟩

/-- C28: when `refine` raises for an image, the images before it have been refined already, so that calling it
again refines them twice. -/
theorem C28_atomic_fails :
    let env : RpcEnv Unit ℕ ℕ ℕ := { exRpc with refine := fun r g => if g = 99 then .error .valueError else .ok (r + g) }
    let s : RpcState Unit ℕ ℕ := ⟨[("a.tif", ⟨(), 1⟩), ("b.tif", ⟨(), 2⟩)], []⟩
    (env.refineAll s [("a.tif", 10), ("b.tif", 99)]).1 = .error .valueError ∧
    (env.refineAll s [("a.tif", 10), ("b.tif", 99)]).2.params.map (fun p => p.2.rpc) = [11, 2] ∧
    (env.run s [.refine [("a.tif", 10), ("b.tif", 99)], .refine [("a.tif", 10)]]).params.map (fun p => p.2.rpc) =
      [21, 2] :=
  ⟨rfl, rfl, rfl⟩

example : PlainKeys exRpc [("b.tif", ⟨(), 1⟩), ("a.tif", ⟨(), 2⟩)] := by
  refine ⟨by simp [Dict.Ok], ?_⟩
  intro k hk
  simp at hk
  rcases hk with rfl | rfl <;> rfl

example : (exRpc.get (exRpc.run ⟨[("b.tif", ⟨(), 1⟩), ("a.tif", ⟨(), 2⟩)], []⟩
    [.get "d/b.tif", .refine [("b", 10)], .get "a.tif", .refine [("b.tif", 5), ("a", 0)]]) "d/b.tif").1 = .ok 16 := rfl

-- a file that is not among the parameters
example : (exRpc.get (exRpc.run ⟨[("b.tif", ⟨(), 1⟩)], []⟩ [.get "c.tif", .refine [("c", 10)]]) "c.tif").1 = .error .paramError := rfl

-- refining again adds to the refinement that was made before
example :
    (exRpc.run ⟨[("b.tif", ⟨(), 1⟩)], []⟩ [.refine [("b", 10)], .refine [("b", 10)]]).params.map (fun p => p.2.rpc) =
      [21] := rfl

end Verif.Factory
