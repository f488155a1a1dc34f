/-
Calls do not change the objects of the caller (C92).
-/
import Verif.Memory.Model

set_option autoImplicit false

namespace Verif.Memory

/-! ### What is to be proved -/

/-- However the code ends, no object that was there before it ran is changed. -/
def Keeps (c : Cmd) : Prop :=
  ∀ s s' r, Ex c s s' r → ∀ l, l < s.next → s'.heap l = s.heap l

/-- However the code ends, no object that was there before it ran is changed, other than `self`. -/
def KeepsOthers (c : Cmd) : Prop :=
  ∀ s s' r, Ex c s s' r → ∀ l, l < s.next → l ≠ s.env "self" → s'.heap l = s.heap l

/-- The result is an object made by the call: the caller can change it without an effect on its
other objects. -/
def NewResult (c : Cmd) : Prop :=
  ∀ s s', Ex c s s' false → s.next ≤ s'.env "res"

/-! ### A check that is enough -/

/-- `chk sf c Γ`: when the variables in `Γ` have objects made since the start of the call, `c`
changes such objects only (and `self`, when `sf`), and `Γ'` in the result `some Γ'` have such objects
at its end. -/
def chk (sf : Bool) : Cmd → List Var → Option (List Var)
  | .skip, Γ => some Γ
  | .fresh x, Γ => if x = "self" then none else some (x :: Γ)
  | .alias x y, Γ =>
    if x = "self" then none
    else if y ∈ Γ then some (x :: Γ) else some (Γ.filter (fun v => !(v == x)))
  | .item x _, Γ => if x = "self" then none else some (Γ.filter (fun v => !(v == x)))
  | .write x, Γ => if x ∈ Γ ∨ (sf = true ∧ x = "self") then some Γ else none
  | .seq a b, Γ => (chk sf a Γ).bind (chk sf b)
  | .alt a b, Γ =>
    match chk sf a Γ, chk sf b Γ with
    | some Γ₁, some Γ₂ => some (Γ₁.filter (fun v => Γ₂.contains v))
    | _, _ => none
  | .loop a, Γ =>
    match chk sf a Γ with
    | none => none
    | some Γ₀ =>
      let Γ₁ := Γ.filter (fun v => Γ₀.contains v)
      match chk sf a Γ₁ with
      | none => none
      | some Γ₂ => if Γ₁.all (fun v => Γ₂.contains v) then some Γ₁ else none
  | .call f dst args, Γ =>
    if dst = "self" ∨ (args.lookup "self").isSome = true then none
    else
      let Γc := (args.filter (fun p => Γ.contains p.2 && (args.lookup p.1 == some p.2))).map (·.1)
        ++ Γ.filter (fun v => !(args.lookup v).isSome)
      match chk sf f Γc with
      | none => none
      | some Γr =>
        if "res" ∈ Γr then some (dst :: Γ) else some (Γ.filter (fun v => !(v == dst)))

/-- The objects below `base` are as in `h₀`, but for `self` when `sf`. -/
structure Inv (sf : Bool) (base : Loc) (h₀ : Loc → Obj) (slf : Loc) (s : St) : Prop where
  next : base ≤ s.next
  keep : ∀ l, l < base → (sf = true → l ≠ slf) → s.heap l = h₀ l
  me : s.env "self" = slf

/-- The variables in `Γ` have objects made since the start. -/
def Own (base : Loc) (Γ : List Var) (s : St) : Prop := ∀ x, x ∈ Γ → base ≤ s.env x

theorem Own.mono {base : Loc} {Γ Δ : List Var} {s : St} (h : Own base Γ s) (hs : ∀ x ∈ Δ, x ∈ Γ) :
    Own base Δ s := fun x hx => h x (hs x hx)

/-- What the check gives. -/
def Sound (sf : Bool) (c : Cmd) : Prop :=
  ∀ Γ Γ', chk sf c Γ = some Γ' → ∀ s s' r, Ex c s s' r →
    ∀ base h₀ slf, Inv sf base h₀ slf s → Own base Γ s →
      Inv sf base h₀ slf s' ∧ (r = false → Own base Γ' s')

theorem loop_sound {sf : Bool} {a : Cmd} (ha : Sound sf a) {Γ₁ Γ₂ : List Var}
    (hc : chk sf a Γ₁ = some Γ₂) (hs : ∀ x ∈ Γ₁, x ∈ Γ₂) :
    ∀ c s s' r, Ex c s s' r → c = .loop a →
      ∀ base h₀ slf, Inv sf base h₀ slf s → Own base Γ₁ s →
        Inv sf base h₀ slf s' ∧ (r = false → Own base Γ₁ s') := by
  intro c s s' r h
  induction h with
  | raise c s => intro _ base h₀ slf hi ho; exact ⟨hi, by simp⟩
  | loopEnd a' s => intro _ base h₀ slf hi ho; exact ⟨hi, fun _ => ho⟩
  | loopStep a' s t u r h₁ h₂ ih₁ ih₂ =>
    intro e base h₀ slf hi ho
    cases e
    obtain ⟨hi', ho'⟩ := ha _ _ hc _ _ _ h₁ base h₀ slf hi ho
    exact ih₂ rfl base h₀ slf hi' ((ho' rfl).mono hs)
  | loopRaise a' s t h ih =>
    intro e base h₀ slf hi ho
    cases e
    exact ⟨(ha _ _ hc _ _ _ h base h₀ slf hi ho).1, by simp⟩
  | _ => intro e; cases e

theorem own_update {base : Loc} {Γ : List Var} {s : St} {x : Var} {l : Loc} {h : Loc → Obj} {n : Loc}
    (ho : Own base Γ s) : Own base (Γ.filter (fun v => !(v == x))) ⟨Function.update s.env x l, h, n⟩ := by
  intro v hv
  simp only [List.mem_filter, Bool.not_eq_true', beq_eq_false_iff_ne] at hv
  simpa [Function.update_of_ne hv.2] using ho v hv.1

theorem own_cons {base : Loc} {Γ : List Var} {s : St} {x : Var} {l : Loc} {h : Loc → Obj} {n : Loc}
    (ho : Own base Γ s) (hl : base ≤ l) : Own base (x :: Γ) ⟨Function.update s.env x l, h, n⟩ := by
  intro v hv
  by_cases e : v = x
  · subst e; simpa using hl
  · have : v ∈ Γ := by simpa [e] using hv
    simpa [Function.update_of_ne e] using ho v this

theorem sound (sf : Bool) (c : Cmd) : Sound sf c := by
  induction c with
  | skip =>
    intro Γ Γ' hc s s' r h base h₀ slf hi ho
    simp only [chk, Option.some.injEq] at hc
    subst hc
    cases h
    · exact ⟨hi, by simp⟩
    · exact ⟨hi, fun _ => ho⟩
  | fresh x =>
    intro Γ Γ' hc s s' r h base h₀ slf hi ho
    simp only [chk] at hc
    split at hc
    · simp at hc
    rename_i hx
    simp only [Option.some.injEq] at hc
    subst hc
    cases h with
    | raise => exact ⟨hi, by simp⟩
    | fresh _ _ o =>
      refine ⟨⟨Nat.le_succ_of_le hi.next, ?_, ?_⟩, fun _ => own_cons ho hi.next⟩
      · intro l hl hn
        have : l ≠ s.next := Nat.ne_of_lt (Nat.lt_of_lt_of_le hl hi.next)
        simpa [Function.update_of_ne this] using hi.keep l hl hn
      · simpa [Function.update_of_ne (Ne.symm hx)] using hi.me
  | «alias» x y =>
    intro Γ Γ' hc s s' r h base h₀ slf hi ho
    simp only [chk] at hc
    split at hc
    · simp at hc
    rename_i hx
    cases h with
    | raise => exact ⟨hi, by simp⟩
    | «alias» =>
      refine ⟨⟨hi.next, hi.keep, ?_⟩, fun _ => ?_⟩
      · simpa [Function.update_of_ne (Ne.symm hx)] using hi.me
      · split at hc
        · rename_i hy
          simp only [Option.some.injEq] at hc
          subst hc
          exact own_cons ho (ho y hy)
        · simp only [Option.some.injEq] at hc
          subst hc
          exact own_update ho
  | item x y =>
    intro Γ Γ' hc s s' r h base h₀ slf hi ho
    simp only [chk] at hc
    split at hc
    · simp at hc
    rename_i hx
    simp only [Option.some.injEq] at hc
    subst hc
    cases h with
    | raise => exact ⟨hi, by simp⟩
    | item _ _ _ l hl =>
      refine ⟨⟨hi.next, hi.keep, ?_⟩, fun _ => own_update ho⟩
      simpa [Function.update_of_ne (Ne.symm hx)] using hi.me
  | write x =>
    intro Γ Γ' hc s s' r h base h₀ slf hi ho
    simp only [chk] at hc
    split at hc
    · rename_i hx
      simp only [Option.some.injEq] at hc
      subst hc
      cases h with
      | raise => exact ⟨hi, by simp⟩
      | write _ _ o =>
        refine ⟨⟨hi.next, ?_, hi.me⟩, fun _ => ho⟩
        intro l hl hn
        have hne : l ≠ s.env x := by
          rcases hx with hx | ⟨e, hx⟩
          · exact Nat.ne_of_lt (Nat.lt_of_lt_of_le hl (ho x hx))
          · rw [hx, hi.me]; exact hn e
        simpa [Function.update_of_ne hne] using hi.keep l hl hn
    · simp at hc
  | seq a b iha ihb =>
    intro Γ Γ' hc s s' r h base h₀ slf hi ho
    simp only [chk, Option.bind_eq_some_iff] at hc
    obtain ⟨Γ₁, ha, hb⟩ := hc
    cases h with
    | raise => exact ⟨hi, by simp⟩
    | seq _ _ _ t _ _ h₁ h₂ =>
      obtain ⟨hi', ho'⟩ := iha _ _ ha _ _ _ h₁ base h₀ slf hi ho
      exact ihb _ _ hb _ _ _ h₂ base h₀ slf hi' (ho' rfl)
    | seqRaise _ _ _ _ h => exact ⟨(iha _ _ ha _ _ _ h base h₀ slf hi ho).1, by simp⟩
  | alt a b iha ihb =>
    intro Γ Γ' hc s s' r h base h₀ slf hi ho
    simp only [chk] at hc
    split at hc
    · rename_i Γ₁ Γ₂ ha hb
      simp only [Option.some.injEq] at hc
      subst hc
      cases h with
      | raise => exact ⟨hi, by simp⟩
      | altL _ _ _ _ _ h =>
        obtain ⟨hi', ho'⟩ := iha _ _ ha _ _ _ h base h₀ slf hi ho
        exact ⟨hi', fun e => (ho' e).mono fun x hx => (List.mem_filter.1 hx).1⟩
      | altR _ _ _ _ _ h =>
        obtain ⟨hi', ho'⟩ := ihb _ _ hb _ _ _ h base h₀ slf hi ho
        exact ⟨hi', fun e => (ho' e).mono fun x hx => by simpa using (List.mem_filter.1 hx).2⟩
    · simp at hc
  | loop a iha =>
    intro Γ Γ' hc s s' r h base h₀ slf hi ho
    simp only [chk] at hc
    split at hc
    · simp at hc
    split at hc
    · simp at hc
    rename_i Γ₀ h0 _ Γ₂ h2
    split at hc
    · rename_i hs
      simp only [Option.some.injEq] at hc
      subst hc
      refine loop_sound iha h2 ?_ _ _ _ _ h rfl base h₀ slf hi
        (ho.mono fun x hx => (List.mem_filter.1 hx).1)
      intro x hx
      simpa using List.all_eq_true.1 hs x hx
    · simp at hc
  | call f dst args ih =>
    intro Γ Γ' hc s s' r h base h₀ slf hi ho
    simp only [chk] at hc
    split at hc
    · simp at hc
    rename_i hd
    rw [not_or] at hd
    split at hc
    · simp at hc
    rename_i Γr hf
    have hi0 : Inv sf base h₀ slf ⟨bindArgs args s.env, s.heap, s.next⟩ := by
      refine ⟨hi.next, hi.keep, ?_⟩
      have : args.lookup "self" = none := by
        rcases e : args.lookup "self" with _ | v
        · rfl
        · exact absurd (by rw [e]; rfl) hd.2
      simpa [bindArgs, this] using hi.me
    have ho0 : Own base ((args.filter (fun p => Γ.contains p.2 && (args.lookup p.1 == some p.2))).map
        (·.1) ++ Γ.filter (fun v => !(args.lookup v).isSome)) ⟨bindArgs args s.env, s.heap, s.next⟩ := by
      intro x hx
      rcases List.mem_append.1 hx with hx | hx
      · obtain ⟨p, hp, rfl⟩ := List.mem_map.1 hx
        have hp2 := (List.mem_filter.1 hp).2
        simp only [Bool.and_eq_true, List.contains_iff_mem, beq_iff_eq] at hp2
        simp only [bindArgs, hp2.2]
        exact ho _ hp2.1
      · have hx' := List.mem_filter.1 hx
        have : args.lookup x = none := by simpa using hx'.2
        simp only [bindArgs, this]
        exact ho _ hx'.1
    cases h with
    | raise => exact ⟨hi, by simp⟩
    | call _ _ _ _ t h =>
      obtain ⟨hi', ho'⟩ := ih _ _ hf _ _ _ h base h₀ slf hi0 ho0
      refine ⟨⟨hi'.next, hi'.keep, ?_⟩, fun _ => ?_⟩
      · simpa [Function.update_of_ne (Ne.symm hd.1)] using hi.me
      · split at hc
        · rename_i hr
          simp only [Option.some.injEq] at hc
          subst hc
          exact own_cons ho (ho' rfl _ hr)
        · simp only [Option.some.injEq] at hc
          subst hc
          exact own_update ho
    | callRaise _ _ _ _ t h =>
      obtain ⟨hi', -⟩ := ih _ _ hf _ _ _ h base h₀ slf hi0 ho0
      exact ⟨⟨hi'.next, hi'.keep, hi.me⟩, by simp⟩

/-- The check passes. -/
def passes (sf : Bool) (c : Cmd) : Bool := (chk sf c []).isSome

/-- The check passes and the result is a new object. -/
def passesNew (sf : Bool) (c : Cmd) : Bool :=
  match chk sf c [] with
  | some Γ => Γ.contains "res"
  | none => false

theorem keeps {c : Cmd} (h : passes false c = true) : Keeps c := by
  intro s s' r he l hl
  obtain ⟨Γ, hΓ⟩ := Option.isSome_iff_exists.1 h
  exact ((sound false c _ _ hΓ _ _ _ he s.next s.heap (s.env "self")
    ⟨Nat.le_refl _, fun _ _ _ => rfl, rfl⟩ (by intro x hx; simp at hx)).1).keep l hl (by simp)

theorem keepsOthers {c : Cmd} (h : passes true c = true) : KeepsOthers c := by
  intro s s' r he l hl hn
  obtain ⟨Γ, hΓ⟩ := Option.isSome_iff_exists.1 h
  exact ((sound true c _ _ hΓ _ _ _ he s.next s.heap (s.env "self")
    ⟨Nat.le_refl _, fun _ _ _ => rfl, rfl⟩ (by intro x hx; simp at hx)).1).keep l hl (fun _ => hn)

theorem newResult {sf : Bool} {c : Cmd} (h : passesNew sf c = true) : NewResult c := by
  intro s s' he
  unfold passesNew at h
  split at h
  · rename_i Γ hΓ
    exact (sound sf c _ _ hΓ _ _ _ he s.next s.heap (s.env "self")
      ⟨Nat.le_refl _, fun _ _ _ => rfl, rfl⟩ (by intro x hx; simp at hx)).2 rfl "res" (by simpa using h)
  · simp at h

/-! ### The property -/

/-- Transforms of coordinates, and the remap of an image, change no array of the caller, nor the
camera, and return new arrays. -/
theorem C92_transforms :
    ∀ f ∈ [frameW2p, rpcW2p, gcpW2p, frameP2wz, rpcP2wz, gcpP2wz, distortPix, p2wSurf, camRemap,
      frameRemap], Keeps f ∧ NewResult f := by
  intro f hf
  have h : ([frameW2p, rpcW2p, gcpW2p, frameP2wz, rpcP2wz, gcpP2wz, distortPix, p2wSurf, camRemap,
      frameRemap].all fun f => passes false f && passesNew false f) = true := by decide +kernel
  have := List.all_eq_true.1 h f hf
  rw [Bool.and_eq_true] at this
  exact ⟨keeps this.1, newResult this.2⟩

/-- `FrameCamera.read` and `update` change the camera only, and the image that is read is new. -/
theorem C92_camera : KeepsOthers frameRead ∧ NewResult frameRead ∧ KeepsOthers frameUpdate :=
  ⟨keepsOthers (by decide +kernel), newResult (sf := true) (by decide +kernel),
    keepsOthers (by decide +kernel)⟩

/-- The tasks of worker threads change none of the arrays that they share, nor the camera. -/
theorem C92_tiles : Keeps remapTile ∧ Keeps sharpTile :=
  ⟨keeps (by decide +kernel), keeps (by decide +kernel)⟩

/-- `Ortho.process` changes neither the DEM array that the `Ortho` keeps for its next call, nor the
creation options or other arguments, however it ends. -/
theorem C92_process : KeepsOthers orthoProcess ∧ Keeps createProfile ∧ NewResult createProfile :=
  ⟨keepsOthers (by decide +kernel), keeps (by decide +kernel),
    newResult (sf := false) (by decide +kernel)⟩

/-- Fits change neither the parameters nor the GCPs, and return new dictionaries. -/
theorem C92_fits : ∀ f ∈ [refineRpc, fitFrame, fitExterior], Keeps f ∧ NewResult f := by
  intro f hf
  have h : ([refineRpc, fitFrame, fitExterior].all
      fun f => passes false f && passesNew false f) = true := by decide +kernel
  have := List.all_eq_true.1 h f hf
  rw [Bool.and_eq_true] at this
  exact ⟨keeps this.1, newResult this.2⟩

/-- Files are written without a change to the parameters, and `get` of a factory changes only the
factory and its cameras.  Missing: `RpcCameras.refine` and `FrameCameras.from_images`, see below. -/
theorem C92_params_partial : Keeps writeParam ∧ KeepsOthers camerasGet :=
  ⟨keeps (by decide +kernel), keepsOthers (by decide +kernel)⟩

/-- The memory of a caller with a parameter dictionary (location 1) for one image (2), its RPC model
(3), GCPs (4) and keyword arguments (5); the factory is 0. -/
def caller : St :=
  ⟨fun v => if v = "rpc_param" then 1 else if v = "gcps" then 4 else if v = "io_kwargs" then 5 else 0,
    fun l => if l = 1 then (10, [2]) else if l = 2 then (20, [3]) else (0, []), 6⟩

/-- The events of `RpcCameras(rpc_param)` then `refine(gcps)`. -/
def initRefine : Cmd := .seq rpcInit rpcRefine


/-- `c` can run to its end from any state. -/
def Runs (c : Cmd) : Prop := ∀ s, ∃ t, Ex c s t false

theorem Runs.seq {a b : Cmd} (ha : Runs a) (hb : Runs b) : Runs (.seq a b) := fun s =>
  let ⟨t, ht⟩ := ha s
  let ⟨u, hu⟩ := hb t
  ⟨u, .seq _ _ _ _ _ _ ht hu⟩

theorem runs_blk {l : List Cmd} (h : ∀ c ∈ l, Runs c) : Runs (blk l) := by
  induction l with
  | nil => exact fun s => ⟨s, .skip s⟩
  | cons a l ih => exact .seq (h a (by simp)) (ih fun c hc => h c (by simp [hc]))

/-- Code without `item` can run to its end from any state. -/
def noItem : Cmd → Bool
  | .item _ _ => false
  | .seq a b => noItem a && noItem b
  | .alt a _ => noItem a
  | .call f _ _ => noItem f
  | _ => true

theorem runs_noItem (c : Cmd) (h : noItem c = true) : Runs c := by
  induction c with
  | skip => exact fun s => ⟨_, .skip s⟩
  | fresh x => exact fun s => ⟨_, .fresh x s (0, [])⟩
  | «alias» x y => exact fun s => ⟨_, .alias x y s⟩
  | item x y => simp [noItem] at h
  | write x => exact fun s => ⟨_, .write x s (0, []) false⟩
  | seq a b iha ihb =>
    simp only [noItem, Bool.and_eq_true] at h
    exact (iha h.1).seq (ihb h.2)
  | alt a b iha _ =>
    intro s
    obtain ⟨t, ht⟩ := iha h s
    exact ⟨t, .altL _ _ _ _ _ ht⟩
  | loop a _ => exact fun s => ⟨s, .loopEnd a s⟩
  | call f dst args ih =>
    intro s
    obtain ⟨t, ht⟩ := ih h ⟨bindArgs args s.env, s.heap, s.next⟩
    exact ⟨_, .call _ _ _ _ _ ht⟩

/-- A function that ends is not ruled out: each of the transforms can return. -/
example : ∀ f ∈ [frameW2p, rpcW2p, gcpW2p, frameP2wz, rpcP2wz, gcpP2wz, distortPix, p2wSurf, camRemap,
    frameRemap, refineRpc], Runs f := by
  intro f hf
  have h : ([frameW2p, rpcW2p, gcpW2p, frameP2wz, rpcP2wz, gcpP2wz, distortPix, p2wSurf, camRemap,
    frameRemap, refineRpc].all noItem) = true := by decide +kernel
  exact runs_noItem f (List.all_eq_true.1 h f hf)

/-- `RpcCameras(rpc_param).refine(gcps)` changes the dictionary of the caller: the code as it is does
not keep the property. -/
theorem C92_refine_fails : ¬ KeepsOthers (.seq rpcInit rpcRefine) := by
  intro hk
  -- the constructor
  obtain ⟨s₁, h₁, e₁, p₁, n₁⟩ : ∃ s₁, Ex rpcInit caller s₁ false ∧
      s₁.env "self._rpc_param_dict" = 1 ∧ (∀ l, l < 6 → s₁.heap l = caller.heap l) ∧
      s₁.env "self" = 0 ∧ s₁.next = 7 := by
    refine ⟨_, .seq _ _ _ _ _ _ (.fresh _ _ (0, [])) (.seq _ _ _ _ _ _ (.alias _ _ _) (.skip _)),
      ?_, ?_, ?_, rfl⟩
    · rfl
    · intro l hl
      exact Function.update_of_ne (Nat.ne_of_lt hl) _ _
    · rfl
  -- the image of the dictionary, and its model
  obtain ⟨s₂, h₂, e₂, p₂, n₂⟩ : ∃ s₂, Ex (.item "rpc_param" "self._rpc_param_dict") s₁ s₂ false ∧
      s₂.env "rpc_param" = 2 ∧ (∀ l, l < 6 → s₂.heap l = caller.heap l) ∧
      s₂.env "self" = 0 ∧ s₂.next = 7 := by
    refine ⟨_, .item _ _ _ 2 ?_, ?_, p₁, ?_, n₁.2⟩
    · rw [e₁, p₁ 1 (by decide)]; decide
    · rfl
    · exact n₁.1
  obtain ⟨s₃, h₃, e₃, p₃, n₃⟩ : ∃ s₃, Ex (.write "self") s₂ s₃ false ∧
      s₃.env "rpc_param" = 2 ∧ s₃.heap 2 = (20, [3]) ∧ s₃.next = 7 := by
    refine ⟨_, .write _ _ (0, []) _, e₂, ?_, n₂.2⟩
    have : (2 : Loc) ≠ s₂.env "self" := by rw [n₂.1]; decide
    exact (Function.update_of_ne this _ _).trans (p₂ 2 (by decide))
  obtain ⟨s₄, h₄, e₄, p₄, n₄⟩ : ∃ s₄, Ex (.item "rpc" "rpc_param") s₃ s₄ false ∧
      s₄.env "rpc_param" = 2 ∧ s₄.heap 2 = (20, [3]) ∧ s₄.next = 7 := by
    refine ⟨_, .item _ _ _ 3 ?_, ?_, p₃, n₃⟩
    · rw [e₃, p₃]; decide
    · exact e₃
  -- the fit, which changes none of these
  obtain ⟨s₅, h₅⟩ := runs_noItem (.call refineRpc "refined" [("rpc", "rpc")]) (by decide +kernel) s₄
  have e₅ : s₅.env "rpc_param" = 2 := by
    cases h₅ with
    | call _ _ _ _ u _ => exact e₄
  -- the assignment
  have hex : Ex (.seq rpcInit rpcRefine) caller
      ⟨s₅.env, Function.update s₅.heap (s₅.env "rpc_param") (21, []), s₅.next⟩ false :=
    .seq _ _ _ _ _ _ h₁ (.loopStep _ _ _ _ _
      (.seq _ _ _ _ _ _ h₂ (.seq _ _ _ _ _ _ (.altL _ _ _ _ _
        (.seq _ _ _ _ _ _ h₃ (.seq _ _ _ _ _ _ h₄ (.seq _ _ _ _ _ _ h₅
          (.seq _ _ _ _ _ _ (.write _ _ (21, []) _) (.skip _)))))) (.skip _))) (.loopEnd _ _))
  have := hk _ _ _ hex 2 (by decide) (by decide)
  rw [e₅] at this
  have h := (Function.update_self (2 : Loc) ((21, []) : Obj) s₅.heap).symm.trans this
  revert h
  decide

/-- `FrameCameras.from_images(files, io_kwargs)` changes the keyword arguments of the caller. -/
theorem C92_from_images_fails : ¬ KeepsOthers frameFromImages := by
  intro hk
  have hex : Ex frameFromImages caller
      ⟨_, Function.update (Function.update (Function.update caller.heap 6 (0, [])) 7 (0, [])) 5 (1, []),
        _⟩ false :=
    .seq _ _ _ _ _ _ (.altL _ _ _ _ _ (.alias _ _ _)) (.seq _ _ _ _ _ _ (.fresh _ _ (0, []))
      (.seq _ _ _ _ _ _ (.fresh _ _ (0, [])) (.seq _ _ _ _ _ _ (.write _ _ (1, []) _) (.skip _))))
  have := hk _ _ _ hex 5 (by decide) (by decide)
  revert this
  decide

/-- The checks are not empty: `_camera_to_pixel` of a Brown camera, and `convert_array_dtype`, do
change their argument; the calls above hand them new arrays. -/
example : ¬ Keeps camToPixBrown ∧ ¬ Keeps convertArray := by
  refine ⟨fun hk => ?_, fun hk => ?_⟩
  · have hex : Ex camToPixBrown caller _ _ :=
      .seq _ _ _ _ _ _ (.fresh _ _ (0, [])) (.seq _ _ _ _ _ _ (.fresh _ _ (0, []))
        (.seqRaise _ _ _ _ (.write "xyz_" _ (1, []) true)))
    have := hk _ _ _ hex 0 (by decide)
    revert this
    decide
  · have hex : Ex convertArray caller _ _ :=
      .seqRaise _ _ _ _ (.altL _ _ _ _ _ (.write "array" _ (1, []) true))
    have := hk _ _ _ hex 0 (by decide)
    revert this
    decide

/-- `_undistort_im` of a pinhole camera returns its argument, not a copy. -/
example : ¬ NewResult undistortIm := by
  intro hk
  have hex : Ex undistortIm caller _ _ :=
    .seq _ _ _ _ _ _ (.write "self" _ (1, []) false)
      (.seq _ _ _ _ _ _ (.altL _ _ _ _ _ (.alias "res" "im_array" _)) (.skip _))
  have := hk _ _ hex
  revert this
  decide

end Verif.Memory
