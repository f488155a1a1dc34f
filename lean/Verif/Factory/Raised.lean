import Verif.Rpc.Again

/-!
# C123: camera factories after a call that raised
-/

set_option autoImplicit false

namespace Verif.Factory

section Frame

variable {I J P X : Type}

/-- States that are the same as far as the first `n` camera objects go. -/
structure Same (n : ℕ) (s s' : FrameState J P) : Prop where
  len : n ≤ s.heap.length
  len' : n ≤ s'.heap.length
  heap : ∀ r < n, s'.heap[r]? = s.heap[r]?
  cams : ∀ id r, r < n → (Dict.get? s'.cams id = some r ↔ Dict.get? s.cams id = some r)

theorem Same.symm {n : ℕ} {s s' : FrameState J P} (h : Same n s s') : Same n s' s :=
  ⟨h.len', h.len, fun r hr => (h.heap r hr).symm, fun id r hr => (h.cams id r hr).symm⟩

theorem Same.trans {n : ℕ} {s s' s'' : FrameState J P} (h : Same n s s') (h' : Same n s' s'') : Same n s s'' :=
  ⟨h.len, h'.len', fun r hr => (h'.heap r hr).trans (h.heap r hr), fun id r hr => (h'.cams id r hr).trans (h.cams id r hr)⟩

theorem Same.refl {n : ℕ} (s : FrameState J P) (h : n ≤ s.heap.length) : Same n s s :=
  ⟨h, h, fun _ _ => rfl, fun _ _ _ => Iff.rfl⟩

theorem Same.update {n : ℕ} {s : FrameState J P} (hn : n ≤ s.heap.length) {r : ℕ} (hr : n ≤ r) (p : P) : Same n s (s.update r p) := by
  refine ⟨hn, by simp [FrameState.update, hn], fun r' hr' => ?_, fun _ _ _ => Iff.rfl⟩
  have : r ≠ r' := by omega
  simp [FrameState.update, this]

/-- A camera that is not among the first `n` objects: making it changes none of these. -/
theorem Same.camera {env : FrameEnv I J P X} {n : ℕ} {s s' : FrameState J P} {id : Option String} {i : I} {r : ℕ} (hn : n ≤ s.heap.length)
    (hid : ∀ r < n, Dict.get? s.cams id ≠ some r) (h : env.camera s id i = .ok (r, s')) : Same n s s' ∧ n ≤ r := by
  unfold FrameEnv.camera at h
  cases hc : Dict.get? s.cams id with
  | some r' =>
    rw [hc] at h
    simp only [Except.ok.injEq, Prod.mk.injEq] at h
    obtain ⟨rfl, rfl⟩ := h
    refine ⟨Same.refl s hn, ?_⟩
    by_contra hlt
    exact hid r' (by omega) hc
  | none =>
    rw [hc] at h
    simp only at h
    cases hm : env.create i with
    | error e => rw [hm] at h; exact absurd h (by simp)
    | ok c =>
      rw [hm] at h
      simp only [Except.ok.injEq, Prod.mk.injEq] at h
      obtain ⟨rfl, rfl⟩ := h
      refine ⟨⟨hn, by simp; omega, fun r' hr' => ?_, fun id' r' hr' => ?_⟩, hn⟩
      · simp only
        rw [List.getElem?_append_left (by omega)]
      · simp only [Dict.get?_set]
        by_cases he : id = id'
        · subst he
          rw [if_pos rfl, hc]
          simp
          omega
        · rw [if_neg he]

/-- A call for a camera that is not among the first `n` objects changes none of these, and returns none of them. -/
theorem Same.far {env : FrameEnv I J P X} {n : ℕ} {s : FrameState J P} (hn : n ≤ s.heap.length) (f : String)
    (hf : ∀ e, env.ext f = .ok e → ∀ r < n, Dict.get? s.cams e.camera ≠ some r) :
    Same n s (env.get s f).2 ∧ ∀ r, (env.get s f).1 = .ok r → n ≤ r := by
  unfold FrameEnv.get
  cases h1 : env.ext f with
  | error e => exact ⟨Same.refl s hn, fun _ h => by simp at h⟩
  | ok ext =>
    simp only
    cases h2 : env.int ext.camera with
    | error e => exact ⟨Same.refl s hn, fun _ h => by simp at h⟩
    | ok i =>
      simp only
      cases h3 : env.camera s ext.camera i with
      | error e => exact ⟨Same.refl s hn, fun _ h => by simp at h⟩
      | ok q =>
        obtain ⟨r, s'⟩ := q
        simp only
        obtain ⟨h4, h5⟩ := Same.camera hn (hf ext h1) h3
        cases h6 : env.newPose ext with
        | error e => exact ⟨h4, fun _ h => by simp at h⟩
        | ok p =>
          refine ⟨h4.trans (Same.update h4.len' h5 p), fun r' hr' => ?_⟩
          simp only [Except.ok.injEq] at hr'
          omega

/-- A call for one of the first `n` objects. -/
theorem get_near {env : FrameEnv I J P X} {s : FrameState J P} {f : String} {e : ExtParam X} {r : ℕ} (he : env.ext f = .ok e)
    (hr : Dict.get? s.cams e.camera = some r) :
    env.get s f = match env.int e.camera with
      | .error x => (.error x, s)
      | .ok _ => match env.newPose e with
        | .error x => (.error x, s)
        | .ok p => (.ok r, s.update r p) := by
  unfold FrameEnv.get
  rw [he]
  simp only
  cases env.int e.camera with
  | error x => rfl
  | ok i =>
    simp only [FrameEnv.camera, hr]
    cases env.newPose e <;> rfl

theorem Same.get {env : FrameEnv I J P X} {n : ℕ} {s s' : FrameState J P} (h : Same n s s') (f : String) :
    Same n (env.get s f).2 (env.get s' f).2 ∧ ∀ r < n, ((env.get s' f).1 = .ok r ↔ (env.get s f).1 = .ok r) := by
  by_cases hf : ∃ e, env.ext f = .ok e ∧ ∃ r < n, Dict.get? s.cams e.camera = some r
  · obtain ⟨e, he, r, hr, hc⟩ := hf
    rw [get_near he hc, get_near he ((h.cams _ _ hr).2 hc)]
    cases env.int e.camera with
    | error x => exact ⟨h, fun _ _ => by simp⟩
    | ok i =>
      simp only
      cases env.newPose e with
      | error x => exact ⟨h, fun _ _ => by simp⟩
      | ok p =>
        refine ⟨⟨?_, ?_, fun r' hr' => ?_, h.cams⟩, fun _ _ => by simp⟩
        · simpa [FrameState.update] using h.len
        · simpa [FrameState.update] using h.len'
        · simp only [FrameState.update, List.getElem?_modify, h.heap r' hr']
  · have h1 : ∀ e, env.ext f = .ok e → ∀ r < n, Dict.get? s.cams e.camera ≠ some r :=
      fun e he r hr hc => hf ⟨e, he, r, hr, hc⟩
    have h2 : ∀ e, env.ext f = .ok e → ∀ r < n, Dict.get? s'.cams e.camera ≠ some r :=
      fun e he r hr hc => hf ⟨e, he, r, hr, (h.cams _ _ hr).1 hc⟩
    obtain ⟨h3, h4⟩ := Same.far h.len f h1
    obtain ⟨h5, h6⟩ := Same.far h.len' f h2
    refine ⟨h3.symm.trans (h.trans h5), fun r hr => ⟨fun hx => ?_, fun hx => ?_⟩⟩
    · have := h6 r hx; omega
    · have := h4 r hx; omega

theorem Same.run {env : FrameEnv I J P X} {n : ℕ} {s s' : FrameState J P} (h : Same n s s') (hist : List String) :
    Same n (env.run s hist) (env.run s' hist) := by
  induction hist generalizing s s' with
  | nil => exact h
  | cons f hist ih => exact ih (h.get f).1

/-- A call that raises changes no camera that there is, though it may make one. -/
theorem Same.raised {env : FrameEnv I J P X} {s s' : FrameState J P} {f : String} {x : PyErr}
    (h : env.get s f = (.error x, s')) : Same s.heap.length s s' := by
  by_cases hf : ∃ e, env.ext f = .ok e ∧ ∃ r < s.heap.length, Dict.get? s.cams e.camera = some r
  · obtain ⟨e, he, r, hr, hc⟩ := hf
    rw [get_near he hc] at h
    cases h1 : env.int e.camera with
    | error y =>
      rw [h1] at h
      simp only [Prod.mk.injEq] at h
      rw [← h.2]
      exact Same.refl s le_rfl
    | ok i =>
      rw [h1] at h
      simp only at h
      cases h2 : env.newPose e with
      | error y =>
        rw [h2] at h
        simp only [Prod.mk.injEq] at h
        rw [← h.2]
        exact Same.refl s le_rfl
      | ok p =>
        rw [h2] at h
        simp at h
  · have := (Same.far (env := env) (s := s) le_rfl f fun e he r hr hc => hf ⟨e, he, r, hr, hc⟩).1
    rwa [h] at this

/-- C123, for frame cameras: when `get` raises, the camera objects that there are, as `r` for a position in `heap`, are as they were,
and all that follows is as if it had not been called: after any further calls, `get` gives the same camera, or raises the same
exception; it returns one of the objects from before in the one case if it returns that object in the other; and these objects
have the same pose and interior parameters. -/
theorem C123_frame (env : FrameEnv I J P X) (hist : List String) (f : String) (x : PyErr) (s s' : FrameState J P)
    (hs : s = env.run .init hist) (h : env.get s f = (.error x, s')) :
    (∀ r < s.heap.length, s'.heap[r]? = s.heap[r]?) ∧
    ∀ later, (∀ g, env.getCam (env.run s' later) g = env.getCam (env.run s later) g) ∧
      (∀ g, ∀ r < s.heap.length, ((env.get (env.run s' later) g).1 = .ok r ↔ (env.get (env.run s later) g).1 = .ok r)) ∧
      ∀ r < s.heap.length, (env.run s' later).heap[r]? = (env.run s later).heap[r]? := by
  have hi : Inv env s := hs ▸ (Inv.init env).run hist
  have hi' : Inv env s' := by
    have := hi.get f
    rwa [h] at this
  have h1 := Same.raised h
  refine ⟨h1.heap, fun later => ?_⟩
  have h2 := h1.run (env := env) later
  exact ⟨fun g => (getCam_eq (hi'.run later) g).trans (getCam_eq (hi.run later) g).symm, fun g => (h2.get g).2, h2.heap⟩

end Frame

section Rpc

variable {M R G C : Type}

/-- The value of `gcps` in orthority/factory.py:308-318: a dictionary, a list of images, a GCP file or none. -/
inductive GcpArg (G : Type)
  | dict (g : Dict String G)
  | images (files : List String)
  | file (f : String)
  | none

/-- `read_im_gcps` and `read_oty_gcps` (see `Verif.Readers` and `Verif.ParamIO`). -/
structure GcpReaders (G : Type) where
  images : List String → Res (Dict String G)
  file : String → Res (Dict String G)

/-- orthority/factory.py:342-349: what `_gcp_dict` becomes.  `None`, `[]` and `''` are not read; they are all `none` here, which
have no method `get`, and are no GCPs for `write_param`. -/
def GcpReaders.read (rd : GcpReaders G) : GcpArg G → Res (Option (Dict String G))
  | .dict g => .ok (some g)
  | .images l => if l = [] then .ok Option.none else (rd.images l).map some
  | .file f => if f = "" then .ok Option.none else (rd.file f).map some
  | .none => .ok Option.none

/-- orthority/factory.py:308-362 `RpcCameras.refine`. -/
def RpcEnv.refineArg (env : RpcEnv M R G C) (rd : GcpReaders G) (w : WithGcps M R G C) (a : GcpArg G) : Res Unit × WithGcps M R G C :=
  match rd.read a with
  | .error e => (.error e, w)
  | .ok Option.none => (if w.state.params.isEmpty then .ok () else .error .attributeError, ⟨w.state, Option.none⟩)
  | .ok (some g) => ((env.refineAll w.state g).1, ⟨(env.refineAll w.state g).2, some g⟩)

/-- orthority/factory.py:391-396: what `write_param` writes, the parameters and the GCPs, if there are any. -/
def WithGcps.saved (w : WithGcps M R G C) : Dict String (RpcParam M R) × Option (Dict String G) :=
  (w.state.params, w.gcps.filter fun g => !g.isEmpty)

/-- C123, for RPC cameras: a `get` that raises changes nothing. -/
theorem C123_rpc_get (env : RpcEnv M R G C) (s s' : RpcState M R C) (f : String) (x : PyErr) (h : env.get s f = (.error x, s')) : s' = s := by
  unfold RpcEnv.get at h
  cases h1 : byName s.params (env.name f) (env.stem f) with
  | none =>
    rw [h1] at h
    simp only [Prod.mk.injEq] at h
    exact h.2.symm
  | some p =>
    rw [h1] at h
    simp only at h
    cases h2 : Dict.get? s.cams (env.name f) with
    | some c =>
      rw [h2] at h
      simp at h
    | none =>
      rw [h2] at h
      simp only at h
      cases h3 : env.create p with
      | error e =>
        rw [h3] at h
        simp only [Prod.mk.injEq] at h
        exact h.2.symm
      | ok c =>
        rw [h3] at h
        simp at h

/-- C123, for RPC cameras: a `refine` that raises because the GCPs cannot be read changes nothing. -/
theorem C123_unread (env : RpcEnv M R G C) (rd : GcpReaders G) (w : WithGcps M R G C) (x : PyErr) :
    (∀ f, f ≠ "" → rd.file f = .error x → env.refineArg rd w (.file f) = (.error x, w)) ∧
    ∀ l, l ≠ [] → rd.images l = .error x → env.refineArg rd w (.images l) = (.error x, w) := by
  constructor
  · intro f hf h
    simp [RpcEnv.refineArg, GcpReaders.read, hf, h, Except.map]
  · intro l hl h
    simp [RpcEnv.refineArg, GcpReaders.read, hl, h, Except.map]

theorem set_middle {a b : Dict String (RpcParam M R)} {k : String} {p q : RpcParam M R} (h : k ∉ a.map Prod.fst) :
    Dict.set (a ++ (k, p) :: b) k q = a ++ (k, q) :: b := by
  induction a with
  | nil => simp [Dict.set]
  | cons e a ih =>
    simp only [List.map_cons, List.mem_cons, not_or] at h
    simp only [List.cons_append, Dict.set, if_neg (Ne.symm h.1), ih h.2]

theorem refineLoop_split (env : RpcEnv M R G C) (g : Dict String G) (todo done : Dict String (RpcParam M R)) (s s' : RpcState M R C)
    (hp : s.params = done ++ todo) (hok : Dict.Ok s.params) (x : PyErr) (h : env.refineLoop g (todo.map Prod.fst) s = (.error x, s')) :
    ∃ pre k p post pre' gs, todo = pre ++ (k, p) :: post ∧ s'.params = done ++ (pre' ++ (k, p) :: post) ∧
      List.Forall₂ (fun q q' => q'.1 = q.1 ∧ env.refined g q.1 q.2 = .ok q'.2) pre pre' ∧
      env.gcpsOf g k = some gs ∧ env.refine p.rpc gs = .error x := by
  induction todo generalizing done s with
  | nil =>
    simp [RpcEnv.refineLoop] at h
  | cons q todo ih =>
    obtain ⟨k, p⟩ := q
    simp only [List.map_cons] at h
    unfold RpcEnv.refineLoop at h
    cases h1 : env.gcpsOf g k with
    | none =>
      rw [h1] at h
      obtain ⟨pre, k', p', post, pre', gs, h2, h3, h4, h5, h6⟩ := ih (done ++ [(k, p)]) s (by simp [hp]) hok h
      refine ⟨(k, p) :: pre, k', p', post, (k, p) :: pre', gs, by simp [h2], by simp [h3], ?_, h5, h6⟩
      exact .cons ⟨rfl, by simp [RpcEnv.refined, h1]⟩ h4
    | some gs =>
      rw [h1] at h
      have hm : Dict.get? s.params k = some p := Dict.get?_of_mem hok (by simp [hp])
      simp only [hm] at h
      cases h2 : env.refine p.rpc gs with
      | error e =>
        rw [h2] at h
        simp only [Prod.mk.injEq, Except.error.injEq] at h
        refine ⟨[], k, p, todo, [], gs, rfl, ?_, .nil, h1, by rw [h2, h.1]⟩
        rw [← h.2, hp]
        rfl
      | ok r =>
        rw [h2] at h
        simp only at h
        have hset : Dict.set s.params k { p with rpc := r } = done ++ (k, { p with rpc := r }) :: todo := by
          rw [hp]
          refine set_middle fun hm => ?_
          unfold Dict.Ok at hok
          rw [hp, List.map_append, List.map_cons, List.nodup_append] at hok
          exact hok.2.2 k hm k (by simp) rfl
        obtain ⟨pre, k', p', post, pre', gs', h3, h4, h5, h6, h7⟩ := ih (done ++ [(k, { p with rpc := r })])
          ⟨Dict.set s.params k { p with rpc := r }, Dict.erase s.cams (env.name k)⟩ (by simp [hset]) (hok.set _ _) h
        refine ⟨(k, p) :: pre, k', p', post, (k, { p with rpc := r }) :: pre', gs', by simp [h3], by simp [h4], ?_, h6, h7⟩
        exact .cons ⟨rfl, by simp [RpcEnv.refined, h1, h2, Except.map]⟩ h5

/-- C123, the part that holds when a `refine` with GCPs raises: there is an image that cannot be refined with its GCPs; this image and
all after it have the models that they had, and those before it are refined with their GCPs, or have no GCPs and the models that they
had.  The GCPs are kept for `write_param`.  Missing: that the images before it have the models that they had, and the factory
the GCPs (`C123_refine_fails`). -/
theorem C123_refine_partial (env : RpcEnv M R G C) (rd : GcpReaders G) (w w' : WithGcps M R G C) (a : GcpArg G) (g : Dict String G)
    (hok : Dict.Ok w.state.params) (ha : rd.read a = .ok (some g)) (x : PyErr) (h : env.refineArg rd w a = (.error x, w')) :
    w'.gcps = some g ∧ ∃ pre k p post pre' gs, w.state.params = pre ++ (k, p) :: post ∧ w'.state.params = pre' ++ (k, p) :: post ∧
      GcpsFor env g k gs ∧ env.truthy gs = true ∧ env.refine p.rpc gs = .error x ∧
      List.Forall₂ (fun q q' : String × RpcParam M R => q'.1 = q.1 ∧
        ((∃ gs r, GcpsFor env g q.1 gs ∧ env.truthy gs = true ∧ env.refine q.2.rpc gs = .ok r ∧ q'.2 = ⟨q.2.other, r⟩) ∨
          ((∀ gs, GcpsFor env g q.1 gs → env.truthy gs = false) ∧ q'.2 = q.2))) pre pre' := by
  unfold RpcEnv.refineArg at h
  rw [ha] at h
  simp only [Prod.mk.injEq] at h
  obtain ⟨h1, rfl⟩ := h
  refine ⟨rfl, ?_⟩
  obtain ⟨pre, k, p, post, pre', gs, h2, h3, h4, h5, h6⟩ := refineLoop_split env g w.state.params [] w.state (env.refineAll w.state g).2 rfl hok x
    (Prod.ext h1 rfl)
  refine ⟨pre, k, p, post, pre', gs, h2, by simpa using h3, ((gcpsOf_iff env g k gs).1 h5).1, ((gcpsOf_iff env g k gs).1 h5).2, h6, ?_⟩
  refine h4.imp ?_
  rintro ⟨k1, p1⟩ ⟨k2, p2⟩ ⟨hk, hr⟩
  refine ⟨hk, ?_⟩
  simp only at hr ⊢
  unfold RpcEnv.refined at hr
  cases h7 : env.gcpsOf g k1 with
  | none =>
    right
    rw [h7] at hr
    simp only [Except.ok.injEq] at hr
    refine ⟨fun gs hgs => ?_, hr.symm⟩
    by_contra ht
    rw [(gcpsOf_iff env g k1 gs).2 ⟨hgs, by simpa using ht⟩] at h7
    simp at h7
  | some gs1 =>
    left
    rw [h7] at hr
    simp only at hr
    cases h8 : env.refine p1.rpc gs1 with
    | error e => rw [h8] at hr; simp [Except.map] at hr
    | ok r =>
      rw [h8] at hr
      simp only [Except.map, Except.ok.injEq] at hr
      exact ⟨gs1, r, ((gcpsOf_iff env g k1 gs1).1 h7).1, ((gcpsOf_iff env g k1 gs1).1 h7).2, h8, hr.symm⟩

end Rpc

section Retry

open Verif.RpcCam

variable {K : Type} [Field K] [LinearOrder K] [IsStrictOrderedRing K] {M C : Type}

/-- C123, the part that holds when `refine` is called again, with the default method: the model of each image with GCPs in a call of `refine`
that returns is the same as without the call before it, whether that raised or not.  Missing: images that have GCPs in the call that
raised only, and other methods (`C123_refine_fails`). -/
theorem C123_retry_partial (lstsq : List (K × K) → Tform K) (env : RpcEnv M (Rpc K) (List (RpcCam.Gcp K)) C) (he : Shifts lstsq env)
    (d : Dict String (RpcParam M (Rpc K))) (hd : PlainKeys env d) (hist : List (Call (List (RpcCam.Gcp K))))
    (bad g : Dict String (List (RpcCam.Gcp K))) (w : WithGcps M (Rpc K) (List (RpcCam.Gcp K)) C)
    (hw : w = WithGcps.run env ⟨⟨d, []⟩, none⟩ hist)
    (h1 : (env.refineAll w.state g).1 = .ok ()) (h2 : (env.refineAll (w.step env (.refine bad)).state g).1 = .ok ()) :
    ((w.step env (.refine bad)).step env (.refine g)).gcps = (w.step env (.refine g)).gcps ∧
    ∀ k p gs, Dict.get? d k = some p → GcpsFor env g k gs → gs ≠ [] → Usable p.rpc gs →
      Dict.get? ((w.step env (.refine bad)).step env (.refine g)).state.params k = Dict.get? (w.step env (.refine g)).state.params k := by
  have hw' : w.step env (.refine bad) = WithGcps.run env ⟨⟨d, []⟩, none⟩ (hist ++ [.refine bad]) := by
    simp [WithGcps.run, List.foldl_append, hw]
  refine ⟨rfl, fun k p gs hp hg hne hu => ?_⟩
  obtain ⟨r, h3, h4⟩ := (C115_saved_partial lstsq env he d hd hist g w hw _ (Prod.ext h1 rfl)).2 k p gs hp hg hne hu
  obtain ⟨r', h5, h6⟩ := (C115_saved_partial lstsq env he d hd _ g _ hw' _ (Prod.ext h2 rfl)).2 k p gs hp hg hne hu
  rw [h3, Except.ok.injEq] at h5
  rw [h4, h6, h5]

end Retry

section Examples

open Verif.RpcCam

/-- Images of one camera; the parameters of the second have no angles. -/
def exRaised : FrameEnv ℕ ℕ ℕ ℕ := { exEnv with
  extParam := [("a.tif", some ⟨some "c", some 1, some 2⟩), ("b.tif", some ⟨some "d", some 3, none⟩), ("e.tif", some ⟨some "d", some 5, some 6⟩)] }

/-- `C123_frame`, where the call that raises makes a camera. -/
example : (exRaised.get (exRaised.run .init ["a.tif"]) "b.tif").1 = .error .keyError ∧
    exRaised.getCam (exRaised.run .init ["a.tif", "b.tif"]) "e.tif" = .ok (some ⟨8, 56⟩) ∧
    (exRaised.run .init ["a.tif", "b.tif", "e.tif"]).heap[0]? = (exRaised.run .init ["a.tif", "e.tif"]).heap[0]? := by
  refine ⟨rfl, rfl, ?_⟩
  exact ((C123_frame exRaised ["a.tif"] "b.tif" .keyError _ (exRaised.run .init ["a.tif", "b.tif"]) rfl rfl).2 ["e.tif"]).2.2 0 (by decide)

/-- A factory of the model `exRpc`, that refines by shift and drift, with a file of GCPs. -/
def exDrift : RpcEnv Unit (Rpc ℚ) (List (RpcCam.Gcp ℚ)) (Rpc ℚ) := { exShift with refine := fun r g => refineRpc lstsqMin .shiftDrift r g }

/-- Readers of a file that is not there. -/
def exReaders : GcpReaders (List (RpcCam.Gcp ℚ)) := ⟨fun _ => .error .fileNotFoundError, fun _ => .error .fileNotFoundError⟩

/-- Two images with the model `exRpc`. -/
def exTwo : WithGcps Unit (Rpc ℚ) (List (RpcCam.Gcp ℚ)) (Rpc ℚ) :=
  ⟨⟨[("a.tif", ⟨(), RpcCam.exRpc⟩), ("b.tif", ⟨(), RpcCam.exRpc⟩)], []⟩, none⟩

/-- Enough GCPs for the first image, and one for the second. -/
def exBad : Dict String (List (RpcCam.Gcp ℚ)) := [("a.tif", farGcps), ("b.tif", [⟨(6, 6), (0, 0, 0)⟩])]

/-- Where C123 fails: `refine` by shift and drift raises as there is one GCP for the second image.  The first image has been refined
already, and `write_param` then writes its new model, and the GCPs. -/
theorem C123_refine_fails :
    (exDrift.refineArg exReaders exTwo (.dict exBad)).1 = .error .valueError ∧
    exTwo.saved.1.map (fun p => project p.2.rpc (1, 1, 0)) = [(15, 27), (15, 27)] ∧
    (exDrift.refineArg exReaders exTwo (.dict exBad)).2.saved.1.map (fun p => project p.2.rpc (1, 1, 0)) = [(25, 27), (15, 27)] ∧
    exTwo.saved.2 = none ∧ (exDrift.refineArg exReaders exTwo (.dict exBad)).2.saved.2 = some exBad :=
  ⟨rfl, by decide +kernel, by decide +kernel, rfl, rfl⟩

/-- Where C123 fails: `refine` with no images raises `AttributeError`, and the GCPs of the refinement before are lost, though the models
are those that were refined with them. -/
theorem C123_nothing_fails :
    let w := (exShift.refineArg exReaders exTwo (.dict exBad)).2
    (exShift.refineArg exReaders exTwo (.dict exBad)).1 = .ok () ∧ w.saved.2 = some exBad ∧
    exShift.refineArg exReaders w (.images []) = (.error .attributeError, ⟨w.state, none⟩) ∧
    (exShift.refineArg exReaders w (.images [])).2.saved = (w.saved.1, none) :=
  ⟨rfl, rfl, rfl, rfl⟩

/-- `C123_unread` and `C123_rpc_get`. -/
example : exShift.refineArg exReaders exTwo (.file "gcps.geojson") = (.error .fileNotFoundError, exTwo) ∧
    (exShift.get exTwo.state "c.tif").2 = exTwo.state :=
  ⟨(C123_unread exShift exReaders exTwo .fileNotFoundError).1 _ (by decide) rfl, C123_rpc_get exShift _ _ "c.tif" .paramError rfl⟩

/-- `C123_refine_partial`: the second image cannot be refined, and has the model that it had. -/
example : ∃ pre k p post pre' gs, exTwo.state.params = pre ++ (k, p) :: post ∧
    (exDrift.refineArg exReaders exTwo (.dict exBad)).2.state.params = pre' ++ (k, p) :: post ∧ GcpsFor exDrift exBad k gs := by
  obtain ⟨_, pre, k, p, post, pre', gs, h1, h2, h3, _⟩ := C123_refine_partial exDrift exReaders exTwo
    (exDrift.refineArg exReaders exTwo (.dict exBad)).2 (.dict exBad) exBad (by simp [Dict.Ok, exTwo]) rfl .valueError rfl
  exact ⟨pre, k, p, post, pre', gs, h1, h2, h3⟩

/-- `C123_retry_partial`. -/
example : Dict.get? ((exTwo.step exShift (.refine exBad)).step exShift (.refine [("a.tif", farGcps)])).state.params "a.tif" =
    Dict.get? (exTwo.step exShift (.refine [("a.tif", farGcps)])).state.params "a.tif" :=
  (C123_retry_partial lstsqMin exShift ⟨fun _ _ => rfl, fun g => by simp [exShift]⟩ exTwo.state.params ⟨by simp [Dict.Ok, exTwo], fun _ _ => rfl⟩ []
    exBad [("a.tif", farGcps)] exTwo rfl rfl rfl).2 "a.tif" ⟨(), RpcCam.exRpc⟩ farGcps rfl (.inl rfl) (by simp [farGcps]) farGcps_usable

end Examples

end Verif.Factory
