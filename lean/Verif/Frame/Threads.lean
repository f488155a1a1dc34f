import Verif.Frame.Model
import Mathlib.Logic.Relation

/-!
# C118: frame cameras in several threads

The methods of one camera object as the loads and stores of its fields that they do, in the order of the code, and threads in
any interleaving of these.  Other statements use local values only.  Arrays and tuples that fields hold are never changed in
place (C92), so that a load gives a value.
-/

set_option autoImplicit false

namespace Verif.Threads

/-- The fields of a frame camera that methods store: `_alpha`, `_distort`, `_K_undistort`, `_K_undistort_inv`,
`_undistort_maps`, `_R` and `_T` (orthority/camera.py:607-614). -/
structure Cam (A K M R T : Type) where
  alpha : A
  distort : Bool
  kund : K
  kinv : K
  maps : Option M
  rot : R
  pos : T

/-- What is fixed: whether the camera is a pinhole camera, `_get_undistort_intrinsic` (orthority/camera.py:736-781) and the maps of
the camera's class for a matrix (`_get_undistort_maps`, orthority/camera.py:1232-1255 and 1448-1455). -/
structure Env (A K M : Type) where
  isPinhole : Bool
  intr : A → K × K
  mkMaps : K → M

/-- What `read` returns: the image of the file, or bands each remapped with the maps that were loaded for it, or the `TypeError`
of `*None` in the arguments of `cv2.remap` (orthority/camera.py:932). -/
inductive Image (M : Type)
  | raw
  | und (maps : List M)
  | typeError

/-- A thread in a call of a method, by the line that comes next. -/
inductive Th (A K M R T : Type)
  /-- `read` of an image of `n` bands, before the load of `_distort` (orthority/camera.py:1053). -/
  | read (n : ℕ)
  /-- Before the load of `_undistort_maps` in `self._undistort_maps or ..` (orthority/camera.py:917). -/
  | rMaps (n : ℕ)
  /-- There were no maps: before the load of `_K_undistort` in `_get_undistort_maps` (orthority/camera.py:917, 1239, 1453). -/
  | rMake (n : ℕ)
  /-- Before the store of `_undistort_maps` (orthority/camera.py:917). -/
  | rSet (n : ℕ) (m : Option M)
  /-- Before the load of `_undistort_maps` in the test (orthority/camera.py:919). -/
  | rTest (n : ℕ)
  /-- `n` bands left, before the load of `_undistort_maps` for the next (orthority/camera.py:929-936). -/
  | rBand (n : ℕ) (used : List M)
  | rDone (out : Image M)
  /-- `world_to_pixel`, before the load of `_R` (orthority/camera.py:832). -/
  | proj
  /-- Before the load of `_T` (orthority/camera.py:832). -/
  | pPos (r : R)
  /-- Before the load of `_distort` (orthority/camera.py:836-840). -/
  | pDist (r : R) (t : T)
  /-- Before the load of `_K_undistort` (orthority/camera.py:791). -/
  | pMat (r : R) (t : T)
  /-- The pose and, without distortion, the matrix used. -/
  | pDone (r : R) (t : T) (k : Option K)
  /-- The setter of `alpha`, before its test (orthority/camera.py:647). -/
  | alpha (v : A)
  /-- Before the store of `_K_undistort` (orthority/camera.py:648). -/
  | aMat (v : A)
  /-- Before the store of `_K_undistort_inv` (orthority/camera.py:648). -/
  | aInv (v : A)
  /-- Before `self._undistort_maps = None` (orthority/camera.py:649). -/
  | aMaps (v : A)
  /-- Before the store of `_alpha` (orthority/camera.py:650). -/
  | aVal (v : A)
  | aDone
  /-- `update`, before the store of `_R` (orthority/camera.py:814). -/
  | update (r : R) (t : T)
  /-- Before the store of `_T` (orthority/camera.py:814). -/
  | uPos (t : T)
  | uDone

variable {A K M R T : Type}

/-- The next load or store of a thread; none when its call has returned. -/
def step [DecidableEq A] (e : Env A K M) (c : Cam A K M R T) : Th A K M R T → Option (Cam A K M R T × Th A K M R T)
  | .read n => some (c, if c.distort then .rDone .raw else .rMaps n)
  | .rMaps n => some (c, match c.maps with
    | some m => .rSet n (some m)
    | none => if e.isPinhole then .rSet n none else .rMake n)
  | .rMake n => some (c, .rSet n (some (e.mkMaps c.kund)))
  | .rSet n m => some ({ c with maps := m }, .rTest n)
  | .rTest n => some (c, match c.maps with
    | some _ => .rBand n []
    | none => .rDone .raw)
  | .rBand 0 used => some (c, .rDone (.und used))
  | .rBand (n + 1) used => some (c, match c.maps with
    | some m => .rBand n (used ++ [m])
    | none => .rDone .typeError)
  | .rDone _ => none
  | .proj => some (c, .pPos c.rot)
  | .pPos r => some (c, .pDist r c.pos)
  | .pDist r t => some (c, if c.distort then .pDone r t none else .pMat r t)
  | .pMat r t => some (c, .pDone r t (some c.kund))
  | .pDone _ _ _ => none
  | .alpha v => some (c, if e.isPinhole = false ∧ v ≠ c.alpha then .aMat v else .aVal v)
  | .aMat v => some ({ c with kund := (e.intr v).1 }, .aInv v)
  | .aInv v => some ({ c with kinv := (e.intr v).2 }, .aMaps v)
  | .aMaps v => some ({ c with maps := none }, .aVal v)
  | .aVal v => some ({ c with alpha := v }, .aDone)
  | .aDone => none
  | .update r t => some ({ c with rot := r }, .uPos t)
  | .uPos t => some ({ c with pos := t }, .uDone)
  | .uDone => none

/-- A camera and the threads that use it. -/
abbrev Sys (A K M R T : Type) := Cam A K M R T × List (Th A K M R T)

/-- One thread does its next load or store. -/
def Sys.Next [DecidableEq A] (e : Env A K M) (s s' : Sys A K M R T) : Prop :=
  ∃ i t c' t', s.2[i]? = some t ∧ step e s.1 t = some (c', t') ∧ s' = (c', s.2.set i t')

/-- Any interleaving. -/
abbrev Sys.Run [DecidableEq A] (e : Env A K M) : Sys A K M R T → Sys A K M R T → Prop := Relation.ReflTransGen (Sys.Next e)

/-! ## Specification -/

/-- What `read` of an image of `n` bands should return: the image of the file if it is to be distorted or the camera has no
distortion, else each band with the maps of the camera's matrix. -/
def image (e : Env A K M) (c : Cam A K M R T) (n : ℕ) : Image M :=
  if c.distort = true ∨ e.isPinhole = true then .raw else .und (List.replicate n (e.mkMaps c.kund))

/-- The maps kept, if any, are those of the camera's matrix (C43). -/
def Kept (e : Env A K M) (c : Cam A K M R T) : Prop := ∀ m, c.maps = some m → e.isPinhole = false ∧ m = e.mkMaps c.kund

/-- A call that does not set anything: `read` or `world_to_pixel`. -/
def Reads (t : Th A K M R T) : Prop := (∃ n, t = .read n) ∨ t = .proj

/-! ## Threads that read -/

/-- Where a thread can be that started with `t0`, on the camera `c0` that no one sets. -/
def At (e : Env A K M) (c0 : Cam A K M R T) (t0 t : Th A K M R T) (maps : Option M) : Prop :=
  match t0 with
  | .read n =>
    t = .read n ∨ t = .rDone (image e c0 n) ∨
    (c0.distort = false ∧ e.isPinhole = true ∧ (t = .rMaps n ∨ t = .rSet n none ∨ t = .rTest n)) ∨
    (c0.distort = false ∧ e.isPinhole = false ∧
      (t = .rMaps n ∨ t = .rMake n ∨ t = .rSet n (some (e.mkMaps c0.kund)) ∨
        (maps ≠ none ∧ (t = .rTest n ∨ ∃ k, k ≤ n ∧ t = .rBand (n - k) (List.replicate k (e.mkMaps c0.kund))))))
  | .proj => t = .proj ∨ t = .pPos c0.rot ∨ t = .pDist c0.rot c0.pos ∨ (c0.distort = false ∧ t = .pMat c0.rot c0.pos) ∨
      t = .pDone c0.rot c0.pos (if c0.distort then none else some c0.kund)
  | _ => False

/-- The invariant. -/
structure Inv (e : Env A K M) (c0 : Cam A K M R T) (l0 : List (Th A K M R T)) (s : Sys A K M R T) : Prop where
  fields : s.1 = { c0 with maps := s.1.maps }
  kept : Kept e s.1
  len : s.2.length = l0.length
  at_ : ∀ (i : ℕ) (t0 t : Th A K M R T), l0[i]? = some t0 → s.2[i]? = some t → At e c0 t0 t s.1.maps

theorem At.mono {e : Env A K M} {c0 : Cam A K M R T} {t0 t : Th A K M R T} {m m' : Option M} (h : At e c0 t0 t m)
    (hm : m ≠ none → m' ≠ none) : At e c0 t0 t m' := by
  unfold At at h ⊢
  split at h
  · rcases h with h | h | h | ⟨h1, h2, h⟩
    · exact Or.inl h
    · exact Or.inr (Or.inl h)
    · exact Or.inr (Or.inr (Or.inl h))
    · refine Or.inr (Or.inr (Or.inr ⟨h1, h2, ?_⟩))
      rcases h with h | h | h | ⟨h, h'⟩
      · exact Or.inl h
      · exact Or.inr (Or.inl h)
      · exact Or.inr (Or.inr (Or.inl h))
      · exact Or.inr (Or.inr (Or.inr ⟨hm h, h'⟩))
  · exact h
  · exact h

/-- One step of a thread keeps the invariant. -/
theorem At.step [DecidableEq A] {e : Env A K M} {c0 c c' : Cam A K M R T} {t0 t t' : Th A K M R T} (hc : c = { c0 with maps := c.maps })
    (hk : Kept e c) (h : At e c0 t0 t c.maps) (hs : step e c t = some (c', t')) :
    c' = { c0 with maps := c'.maps } ∧ Kept e c' ∧ At e c0 t0 t' c'.maps ∧ (c.maps ≠ none → c'.maps ≠ none) := by
  obtain ⟨al, di, ku, ki, ma, ro, po⟩ := c
  simp only [Cam.mk.injEq, true_and] at hc
  obtain ⟨rfl, rfl, rfl, rfl, rfl, rfl⟩ := hc
  unfold At at h
  split at h
  · rename_i n
    rcases h with rfl | rfl | ⟨hd, hp, h⟩ | ⟨hd, hp, h⟩
    · simp only [Threads.step, Option.some.injEq, Prod.mk.injEq] at hs
      obtain ⟨rfl, rfl⟩ := hs
      refine ⟨rfl, hk, ?_, id⟩
      cases hd : c0.distort
      · cases hp : e.isPinhole <;> simp [At, hd, hp]
      · simp [At, image, hd]
    · simp [Threads.step] at hs
    · have hm : ma = none := by
        cases ma with
        | none => rfl
        | some m => exact absurd (hk m rfl).1 (by simp [hp])
      subst hm
      rcases h with rfl | rfl | rfl <;> simp only [Threads.step, Option.some.injEq, Prod.mk.injEq] at hs <;> obtain ⟨rfl, rfl⟩ := hs
      · exact ⟨rfl, hk, by simp [At, hd, hp], id⟩
      · exact ⟨rfl, hk, by simp [At, hd, hp], id⟩
      · exact ⟨rfl, hk, by simp [At, image, hp], id⟩
    · rcases h with rfl | rfl | rfl | ⟨hm, rfl | ⟨k, hkn, rfl⟩⟩
      · simp only [Threads.step, Option.some.injEq, Prod.mk.injEq] at hs
        obtain ⟨rfl, rfl⟩ := hs
        refine ⟨rfl, hk, ?_, id⟩
        cases ma with
        | none => simp [At, hd, hp]
        | some m => have := (hk m rfl).2; simp only at this; subst this; simp [At, hd, hp]
      · simp only [Threads.step, Option.some.injEq, Prod.mk.injEq] at hs
        obtain ⟨rfl, rfl⟩ := hs
        exact ⟨rfl, hk, by simp [At, hd, hp], id⟩
      · simp only [Threads.step, Option.some.injEq, Prod.mk.injEq] at hs
        obtain ⟨rfl, rfl⟩ := hs
        refine ⟨rfl, ?_, by simp [At, hd, hp], by simp⟩
        intro m hm
        simp only [Option.some.injEq] at hm
        exact ⟨hp, hm.symm⟩
      · simp only [Threads.step, Option.some.injEq, Prod.mk.injEq] at hs
        obtain ⟨rfl, rfl⟩ := hs
        refine ⟨rfl, hk, ?_, id⟩
        cases ma with
        | none => exact absurd rfl hm
        | some m =>
          simp only [At, hd, hp]
          refine Or.inr (Or.inr (Or.inr ⟨trivial, trivial, Or.inr (Or.inr (Or.inr ⟨by simp, Or.inr ⟨0, by simp, by simp⟩⟩))⟩))
      · cases ma with
        | none => exact absurd rfl hm
        | some m =>
          have hmm := (hk m rfl).2
          simp only at hmm
          rcases Nat.eq_zero_or_pos (n - k) with h0 | h0
          · rw [h0] at hs
            simp only [Threads.step, Option.some.injEq, Prod.mk.injEq] at hs
            obtain ⟨rfl, rfl⟩ := hs
            have : k = n := by omega
            subst this
            exact ⟨rfl, hk, by simp [At, image, hd, hp], id⟩
          · obtain ⟨j, hj⟩ : ∃ j, n - k = j + 1 := ⟨n - k - 1, by omega⟩
            rw [hj] at hs
            simp only [Threads.step, Option.some.injEq, Prod.mk.injEq] at hs
            obtain ⟨rfl, rfl⟩ := hs
            refine ⟨rfl, hk, ?_, id⟩
            simp only [At, hd, hp]
            refine Or.inr (Or.inr (Or.inr ⟨trivial, trivial, Or.inr (Or.inr (Or.inr ⟨by simp, Or.inr ⟨k + 1, by omega, ?_⟩⟩))⟩))
            rw [hmm, List.replicate_succ']
            congr 1
            omega
  · rcases h with rfl | rfl | rfl | ⟨hd, rfl⟩ | rfl
    · simp only [Threads.step, Option.some.injEq, Prod.mk.injEq] at hs
      obtain ⟨rfl, rfl⟩ := hs
      exact ⟨rfl, hk, by simp [At], id⟩
    · simp only [Threads.step, Option.some.injEq, Prod.mk.injEq] at hs
      obtain ⟨rfl, rfl⟩ := hs
      exact ⟨rfl, hk, by simp [At], id⟩
    · simp only [Threads.step, Option.some.injEq, Prod.mk.injEq] at hs
      obtain ⟨rfl, rfl⟩ := hs
      refine ⟨rfl, hk, ?_, id⟩
      cases hd : c0.distort <;> simp [At, hd]
    · simp only [Threads.step, Option.some.injEq, Prod.mk.injEq] at hs
      obtain ⟨rfl, rfl⟩ := hs
      exact ⟨rfl, hk, by simp [At, hd], id⟩
    · simp [Threads.step] at hs
  · exact absurd h id

theorem Inv.next [DecidableEq A] {e : Env A K M} {c0 : Cam A K M R T} {l0 : List (Th A K M R T)} {s s' : Sys A K M R T}
    (h : Inv e c0 l0 s) (hn : Sys.Next e s s') : Inv e c0 l0 s' := by
  obtain ⟨i, t, c', t', hi, hs, rfl⟩ := hn
  have hlt : i < s.2.length := (List.getElem?_eq_some_iff.1 hi).1
  obtain ⟨t0, h0⟩ : ∃ t0, l0[i]? = some t0 := ⟨l0[i]'(h.len ▸ hlt), List.getElem?_eq_getElem _⟩
  obtain ⟨h1, h2, h3, h4⟩ := At.step h.fields h.kept (h.at_ i t0 t h0 hi) hs
  refine ⟨h1, h2, by simpa using h.len, ?_⟩
  intro j u0 u hj hu
  simp only [List.getElem?_set] at hu
  split at hu
  · rename_i hij
    subst hij
    simp only [Option.some.injEq] at hu
    subst hu
    rw [h0] at hj
    simp only [Option.some.injEq] at hj
    subst hj
    exact h3
  · exact (h.at_ j u0 u hj hu).mono h4

/-- Loads and stores that a thread has left, at most. -/
def left : Th A K M R T → ℕ
  | .read n => n + 6
  | .rMaps n => n + 5
  | .rMake n => n + 4
  | .rSet n _ => n + 3
  | .rTest n => n + 2
  | .rBand n _ => n + 1
  | .rDone _ => 0
  | .proj => 4
  | .pPos _ => 3
  | .pDist _ _ => 2
  | .pMat _ _ => 1
  | .pDone _ _ _ => 0
  | .alpha _ => 5
  | .aMat _ => 4
  | .aInv _ => 3
  | .aMaps _ => 2
  | .aVal _ => 1
  | .aDone => 0
  | .update _ _ => 2
  | .uPos _ => 1
  | .uDone => 0

theorem step_left [DecidableEq A] (e : Env A K M) (c c' : Cam A K M R T) (t t' : Th A K M R T) (h : step e c t = some (c', t')) :
    left t' < left t := by
  cases t <;> simp only [step, Option.some.injEq, Prod.mk.injEq, reduceCtorEq] at h
  case rBand n used =>
    cases n <;> simp only [step, Option.some.injEq, Prod.mk.injEq] at h <;> obtain ⟨_, rfl⟩ := h
    · simp [left]
    · split <;> simp [left]
  all_goals obtain ⟨_, rfl⟩ := h
  all_goals first | (simp [left]; done) | (split <;> simp [left] <;> done) | (split <;> (try split) <;> simp [left])

/-- The call of a thread has returned or raised. -/
def Finished : Th A K M R T → Prop
  | .rDone _ | .pDone _ _ _ | .aDone | .uDone => True
  | _ => False

theorem step_none [DecidableEq A] (e : Env A K M) (c : Cam A K M R T) (t : Th A K M R T) : step e c t = none ↔ Finished t := by
  cases t <;> simp [step, Finished]
  case rBand n used => cases n <;> simp [step]

/-- A run of `k` steps. -/
inductive Steps [DecidableEq A] (e : Env A K M) : ℕ → Sys A K M R T → Sys A K M R T → Prop
  | zero (s : Sys A K M R T) : Steps e 0 s s
  | succ {k : ℕ} {s s' s'' : Sys A K M R T} (h : Steps e k s s') (h' : Sys.Next e s' s'') : Steps e (k + 1) s s''

theorem sum_set (l : List (Th A K M R T)) (i : ℕ) (t t' : Th A K M R T) (hi : l[i]? = some t) (h : left t' < left t) :
    ((l.set i t').map left).sum < (l.map left).sum := by
  induction l generalizing i with
  | nil => simp at hi
  | cons a l ih =>
    cases i with
    | zero => simp only [List.getElem?_cons_zero, Option.some.injEq] at hi; subst hi; simp; omega
    | succ i => simp only [List.getElem?_cons_succ] at hi; simp only [List.set_cons_succ, List.map_cons, List.sum_cons]; have := ih i hi; omega

theorem Steps.bound [DecidableEq A] {e : Env A K M} {k : ℕ} {s s' : Sys A K M R T} (h : Steps e k s s') :
    k + (s'.2.map left).sum ≤ (s.2.map left).sum := by
  induction h with
  | zero => simp
  | succ h h' ih =>
    obtain ⟨i, t, c', t', hi, hs, rfl⟩ := h'
    have := sum_set _ i t t' hi (step_left e _ _ t t' hs)
    simp only
    omega

/-- C118: when threads only read images and project points with a camera, in any number and any interleaving, each image is the
one that the camera gives alone, and each projection uses the camera's pose and matrix; and the camera is left with the fields
that it had, and with no maps or the right ones. -/
theorem C118_reads [DecidableEq A] (e : Env A K M) (c0 c : Cam A K M R T) (hk : Kept e c0) (l0 l : List (Th A K M R T))
    (h0 : ∀ t ∈ l0, Reads t) (hr : Sys.Run e (c0, l0) (c, l)) :
    (∀ (i n : ℕ) (out : Image M), l0[i]? = some (.read n) → l[i]? = some (.rDone out) → out = image e c0 n) ∧
    (∀ (i : ℕ) (r : R) (t : T) (k : Option K), l[i]? = some (.pDone r t k) → r = c0.rot ∧ t = c0.pos ∧ k = if c0.distort then none else some c0.kund) ∧
    c = { c0 with maps := c.maps } ∧ Kept e c := by
  have hinv : Inv e c0 l0 (c, l) := by
    have hstart : Inv e c0 l0 (c0, l0) := by
      refine ⟨rfl, hk, rfl, ?_⟩
      intro i t0 t hi hi'
      simp only at hi'
      rw [hi] at hi'
      simp only [Option.some.injEq] at hi'
      subst hi'
      rcases h0 t0 (List.mem_of_getElem? hi) with ⟨n, rfl⟩ | rfl <;> simp [At]
    generalize (c, l) = s at hr
    induction hr with
    | refl => exact hstart
    | tail _ hn ih => exact ih.next hn
  refine ⟨?_, ?_, hinv.fields, hinv.kept⟩
  · intro i n out hi hi'
    have := hinv.at_ i _ _ hi hi'
    simpa [At] using this
  · intro i r t k hi
    have hlt : i < l.length := (List.getElem?_eq_some_iff.1 hi).1
    have hlt0 : i < l0.length := by have := hinv.len; simp only at this; omega
    have hi0 : l0[i]? = some l0[i] := List.getElem?_eq_getElem hlt0
    have := hinv.at_ i _ _ hi0 hi
    rcases h0 l0[i] (List.getElem_mem hlt0) with ⟨n, hn⟩ | hn <;> rw [hn] at this
    · simp [At] at this
    · simpa [At] using this

/-- C118: threads do not wait for each other: every thread whose call has not ended can go on, and calls end after at most as many
loads and stores as `left` counts, whatever the interleaving and whatever the calls. -/
theorem C118_ends [DecidableEq A] (e : Env A K M) (s : Sys A K M R T) :
    (∀ i t, s.2[i]? = some t → ¬ Finished t → ∃ c' t', step e s.1 t = some (c', t') ∧ Sys.Next e s (c', s.2.set i t')) ∧
    ∀ k s', Steps e k s s' → k ≤ (s.2.map left).sum := by
  refine ⟨?_, fun k s' h => by have := h.bound; omega⟩
  intro i t hi hf
  cases hs : step e s.1 t with
  | none => exact absurd ((step_none e s.1 t).1 hs) hf
  | some q => exact ⟨q.1, q.2, rfl, i, t, q.1, q.2, hi, hs, rfl⟩

/-- The threads of a list take their next steps in turn; a thread that has ended does nothing. -/
def sched [DecidableEq A] (e : Env A K M) : Sys A K M R T → List ℕ → Sys A K M R T
  | s, [] => s
  | s, i :: is => match s.2[i]? with
    | none => sched e s is
    | some t => match step e s.1 t with
      | none => sched e s is
      | some (c', t') => sched e (c', s.2.set i t') is

theorem sched_run [DecidableEq A] (e : Env A K M) (s : Sys A K M R T) (is : List ℕ) : Sys.Run e s (sched e s is) := by
  induction is generalizing s with
  | nil => exact .refl
  | cons i is ih =>
    unfold sched
    split
    · exact ih s
    · rename_i t ht
      split
      · exact ih s
      · rename_i c' t' hs
        exact .head ⟨i, t, c', t', ht, hs, rfl⟩ (ih _)

theorem run_of_sched [DecidableEq A] {e : Env A K M} {s s' : Sys A K M R T} (is : List ℕ) (h : sched e s is = s') : Sys.Run e s s' :=
  h ▸ sched_run e s is

/-- Two threads that both make the maps, and one that projects. -/
example : ∃ c, Sys.Run (⟨false, fun a => (a, a), fun k => k + 1⟩ : Env ℕ ℕ ℕ) (⟨1, false, 5, 5, none, 7, 8⟩, [.read 2, .proj, .read 1])
    (c, [.rDone (.und [6, 6]), .pDone 7 8 (some 5), .rDone (.und [6])]) :=
  ⟨_, run_of_sched [0, 0, 2, 2, 2, 1, 0, 1, 0, 2, 1, 1, 0, 0, 2, 0, 2, 0, 2, 2] rfl⟩

/-! ## Threads that set fields -/

/-- A matrix that the camera had, or that of an alpha that is set. -/
def Mat (e : Env A K M) (c0 : Cam A K M R T) (l0 : List (Th A K M R T)) (m : K) : Prop :=
  m = c0.kund ∨ ∃ v, Th.alpha v ∈ l0 ∧ m = (e.intr v).1

/-- Where threads can be while no thread calls `update`. -/
def Plain (e : Env A K M) (c0 : Cam A K M R T) (l0 : List (Th A K M R T)) : Th A K M R T → Prop
  | .pPos r => r = c0.rot
  | .pDist r t => r = c0.rot ∧ t = c0.pos
  | .pMat r t => r = c0.rot ∧ t = c0.pos ∧ c0.distort = false
  | .pDone r t k => r = c0.rot ∧ t = c0.pos ∧ (c0.distort = true → k = none) ∧ (c0.distort = false → ∃ m, k = some m ∧ Mat e c0 l0 m)
  | .alpha v | .aMat v | .aInv v | .aMaps v | .aVal v => Th.alpha v ∈ l0
  | .update _ _ | .uPos _ => False
  | _ => True

/-- C118, the part that holds when threads set `alpha`: while no thread calls `update`, each projection uses the pose of the camera, and
the matrix that the camera had or that of one alpha that is set.  Missing: images that are read meanwhile (`C118_distorted_fails`,
`C118_error_fails`, `C118_stale_fails`) and `update` (`C118_pose_fails`). -/
theorem C118_projects_partial [DecidableEq A] (e : Env A K M) (c0 c : Cam A K M R T) (l0 l : List (Th A K M R T))
    (h0 : ∀ t ∈ l0, Reads t ∨ ∃ v, t = .alpha v) (hr : Sys.Run e (c0, l0) (c, l)) (i : ℕ) (r : R) (t : T) (k : Option K)
    (hi : l[i]? = some (.pDone r t k)) :
    r = c0.rot ∧ t = c0.pos ∧ (c0.distort = true → k = none) ∧
      (c0.distort = false → ∃ m, k = some m ∧ (m = c0.kund ∨ ∃ v, Th.alpha v ∈ l0 ∧ m = (e.intr v).1)) := by
  have key : ∀ s, Sys.Run e (c0, l0) s → s.1.rot = c0.rot ∧ s.1.pos = c0.pos ∧ s.1.distort = c0.distort ∧
      Mat e c0 l0 s.1.kund ∧ ∀ u ∈ s.2, Plain e c0 l0 u := by
    intro s hs
    induction hs with
    | refl =>
      refine ⟨rfl, rfl, rfl, Or.inl rfl, ?_⟩
      intro u hu
      rcases h0 u hu with (⟨n, rfl⟩ | rfl) | ⟨v, rfl⟩
      · trivial
      · trivial
      · exact hu
    | tail _ hn ih =>
      obtain ⟨hR, hT, hD, hK, hl⟩ := ih
      obtain ⟨j, u, c1, u1, hj, hst, rfl⟩ := hn
      have hu := hl u (List.mem_of_getElem? hj)
      have hstep : c1.rot = c0.rot ∧ c1.pos = c0.pos ∧ c1.distort = c0.distort ∧ Mat e c0 l0 c1.kund ∧ Plain e c0 l0 u1 := by
        cases u <;> simp only [step, Option.some.injEq, Prod.mk.injEq, reduceCtorEq] at hst
        case rBand n used =>
          cases n <;> simp only [Option.some.injEq, Prod.mk.injEq] at hst <;> obtain ⟨rfl, rfl⟩ := hst
          · exact ⟨hR, hT, hD, hK, trivial⟩
          · refine ⟨hR, hT, hD, hK, ?_⟩
            split <;> trivial
        all_goals obtain ⟨rfl, rfl⟩ := hst
        case update r t => exact absurd hu id
        case uPos t => exact absurd hu id
        case pPos r => exact ⟨hR, hT, hD, hK, hu, hT⟩
        case proj => exact ⟨hR, hT, hD, hK, hR⟩
        case pDist r t =>
          refine ⟨hR, hT, hD, hK, ?_⟩
          cases hd : c0.distort <;> rw [hd] at hD <;> simp only [hD]
          · exact ⟨hu.1, hu.2, hd⟩
          · exact ⟨hu.1, hu.2, fun _ => rfl, fun h => absurd h (by simp [hd])⟩
        case pMat r t => exact ⟨hR, hT, hD, hK, hu.1, hu.2.1, fun h => absurd h (by simp [hu.2.2]), fun _ => ⟨_, rfl, hK⟩⟩
        case alpha v => refine ⟨hR, hT, hD, hK, ?_⟩; split <;> exact hu
        case aMat v => exact ⟨hR, hT, hD, Or.inr ⟨v, hu, rfl⟩, hu⟩
        case aInv v => exact ⟨hR, hT, hD, hK, hu⟩
        case aMaps v => exact ⟨hR, hT, hD, hK, hu⟩
        case aVal v => exact ⟨hR, hT, hD, hK, trivial⟩
        case read n => refine ⟨hR, hT, hD, hK, ?_⟩; split <;> trivial
        case rMaps n => refine ⟨hR, hT, hD, hK, ?_⟩; split <;> (try split) <;> trivial
        case rTest n => refine ⟨hR, hT, hD, hK, ?_⟩; split <;> trivial
        all_goals exact ⟨hR, hT, hD, hK, trivial⟩
      refine ⟨hstep.1, hstep.2.1, hstep.2.2.1, hstep.2.2.2.1, ?_⟩
      intro w hw
      rcases List.mem_or_eq_of_mem_set hw with h | h
      · exact hl w h
      · rw [h]; exact hstep.2.2.2.2
  exact (key _ hr).2.2.2.2 _ (List.mem_of_getElem? hi)

section fails

variable [DecidableEq A] (e : Env A K M) (c : Cam A K M R T) (v : A)

/-- C118 fails for threads that set `alpha`: when it is set between the store and the test of the maps (orthority/camera.py:917-919),
`read` returns the distorted image, although `distort` is `False` all the time. -/
theorem C118_distorted_fails (hp : e.isPinhole = false) (hd : c.distort = false) (hv : v ≠ c.alpha) :
    ∃ c', c'.distort = false ∧ Sys.Run e (c, [Th.read 3, Th.alpha v]) (c', [Th.rDone .raw, Th.aDone]) ∧ image e c 3 ≠ .raw ∧
      image e c' 3 ≠ .raw := by
  refine ⟨⟨v, c.distort, (e.intr v).1, (e.intr v).2, none, c.rot, c.pos⟩, hd, ?_, by simp [image, hd, hp], by simp [image, hd, hp]⟩
  cases hm : c.maps with
  | none => exact run_of_sched [0, 0, 0, 0, 1, 1, 1, 1, 1, 0] (by simp [sched, step, hd, hp, hm, hv])
  | some m => exact run_of_sched [0, 0, 0, 1, 1, 1, 1, 1, 0] (by simp [sched, step, hd, hp, hm, hv])

/-- C118 fails for threads that set `alpha`: when it is set while bands are remapped (orthority/camera.py:929-936), `read` raises
`TypeError`. -/
theorem C118_error_fails (hp : e.isPinhole = false) (hd : c.distort = false) (hv : v ≠ c.alpha) :
    ∃ c', Sys.Run e (c, [Th.read 3, Th.alpha v]) (c', [Th.rDone .typeError, Th.aDone]) := by
  refine ⟨⟨v, c.distort, (e.intr v).1, (e.intr v).2, none, c.rot, c.pos⟩, ?_⟩
  cases hm : c.maps with
  | none => exact run_of_sched [0, 0, 0, 0, 0, 0, 1, 1, 1, 1, 1, 0] (by simp [sched, step, hd, hp, hm, hv])
  | some m => exact run_of_sched [0, 0, 0, 0, 0, 1, 1, 1, 1, 1, 0] (by simp [sched, step, hd, hp, hm, hv])

/-- A thread that reads alone, with maps that are there already. -/
theorem read_alone (c0 c' : Cam A K M R T) (m : M) (hd : c0.distort = false) (hm : c0.maps = some m) (n : ℕ) (out : Image M)
    (h : Sys.Run e (c0, [Th.read n]) (c', [Th.rDone out])) : out = .und (List.replicate n m) := by
  have key : ∀ s, Sys.Run e (c0, [Th.read n]) s → s.1 = c0 ∧ ∃ t, s.2 = [t] ∧
      (t = .read n ∨ t = .rMaps n ∨ t = .rSet n (some m) ∨ t = .rTest n ∨
        (∃ k, k ≤ n ∧ t = .rBand (n - k) (List.replicate k m)) ∨ t = .rDone (.und (List.replicate n m))) := by
    intro s hs
    induction hs with
    | refl => exact ⟨rfl, _, rfl, Or.inl rfl⟩
    | tail _ hn ih =>
      obtain ⟨hc, t, hl, ht⟩ := ih
      obtain ⟨i, u, c1, u1, hi, hst, rfl⟩ := hn
      rw [hl] at hi
      have hi0 : i = 0 := by
        have := (List.getElem?_eq_some_iff.1 hi).1
        simp at this
        exact this
      subst hi0
      simp only [List.getElem?_cons_zero, Option.some.injEq] at hi
      subst hi
      rw [hc] at hst
      simp only [hl, List.set_cons_zero, List.cons.injEq, and_true, exists_eq_left']
      rcases ht with rfl | rfl | rfl | rfl | ⟨k, hk, rfl⟩ | rfl
      · simp only [step, hd, Option.some.injEq, Prod.mk.injEq] at hst
        obtain ⟨rfl, rfl⟩ := hst
        exact ⟨rfl, by simp⟩
      · simp only [step, hm, Option.some.injEq, Prod.mk.injEq] at hst
        obtain ⟨rfl, rfl⟩ := hst
        exact ⟨rfl, by simp⟩
      · simp only [step, Option.some.injEq, Prod.mk.injEq] at hst
        obtain ⟨rfl, rfl⟩ := hst
        exact ⟨by rw [← hm], by simp⟩
      · simp only [step, hm, Option.some.injEq, Prod.mk.injEq] at hst
        obtain ⟨rfl, rfl⟩ := hst
        exact ⟨rfl, Or.inr (Or.inr (Or.inr (Or.inr (Or.inl ⟨0, by simp, by simp⟩))))⟩
      · rcases Nat.eq_zero_or_pos (n - k) with h0 | h0
        · rw [h0] at hst
          simp only [step, Option.some.injEq, Prod.mk.injEq] at hst
          obtain ⟨rfl, rfl⟩ := hst
          have : k = n := by omega
          subst this
          exact ⟨rfl, by simp⟩
        · obtain ⟨j, hj⟩ : ∃ j, n - k = j + 1 := ⟨n - k - 1, by omega⟩
          rw [hj] at hst
          simp only [step, hm, Option.some.injEq, Prod.mk.injEq] at hst
          obtain ⟨rfl, rfl⟩ := hst
          refine ⟨rfl, Or.inr (Or.inr (Or.inr (Or.inr (Or.inl ⟨k + 1, by omega, ?_⟩))))⟩
          rw [List.replicate_succ']
          congr 1
          omega
      · simp [step] at hst
  obtain ⟨_, t, hl, ht⟩ := key _ h
  simp only [List.cons.injEq, and_true] at hl
  subst hl
  simpa using ht

/-- C118 fails for threads that set `alpha`: when it is set while the maps are made (orthority/camera.py:917), the maps of the former
alpha are kept.  After both calls have returned, and in any later call of `read` in one thread, the image is undistorted with the former
alpha, while the camera's alpha and matrix are the new ones. -/
theorem C118_stale_fails (hk : Kept e c) (hp : e.isPinhole = false) (hd : c.distort = false) (hv : v ≠ c.alpha) :
    ∃ c', Sys.Run e (c, [Th.read 3, Th.alpha v]) (c', [Th.rDone (.und (List.replicate 3 (e.mkMaps c.kund))), Th.aDone]) ∧
      c'.alpha = v ∧ c'.kund = (e.intr v).1 ∧
      ∀ n c'' out, Sys.Run e (c', [Th.read n]) (c'', [Th.rDone out]) → out = .und (List.replicate n (e.mkMaps c.kund)) := by
  refine ⟨⟨v, c.distort, (e.intr v).1, (e.intr v).2, some (e.mkMaps c.kund), c.rot, c.pos⟩, ?_, rfl, rfl, ?_⟩
  · cases hm : c.maps with
    | none => exact run_of_sched [0, 0, 0, 1, 1, 1, 1, 1, 0, 0, 0, 0, 0, 0] (by simp [sched, step, hd, hp, hm, hv, List.replicate])
    | some m =>
      have := (hk m hm).2
      subst this
      exact run_of_sched [0, 0, 1, 1, 1, 1, 1, 0, 0, 0, 0, 0, 0] (by simp [sched, step, hd, hp, hm, hv, List.replicate])
  · intro n c'' out h
    refine read_alone e ⟨v, c.distort, (e.intr v).1, (e.intr v).2, some (e.mkMaps c.kund), c.rot, c.pos⟩ c'' (e.mkMaps c.kund) hd rfl n out h

/-- A camera whose matrix is its alpha, and maps that tell matrices apart: after alpha is set to 2, images have the maps of alpha 1. -/
example : ∃ c', Sys.Run (⟨false, fun a => (a, a), fun k => k + 1⟩ : Env ℕ ℕ ℕ) (⟨1, false, 1, 1, none, 7, 8⟩, [.read 3, .alpha 2])
    (c', [.rDone (.und [2, 2, 2]), .aDone]) ∧ c'.alpha = 2 ∧ c'.kund = 2 := by
  obtain ⟨c', h1, h2, h3, _⟩ := C118_stale_fails (⟨false, fun a => (a, a), fun k => k + 1⟩ : Env ℕ ℕ ℕ) ⟨1, false, 1, 1, none, 7, 8⟩ 2
    (by intro m hm; simp at hm) rfl rfl (by decide)
  exact ⟨c', h1, h2, h3⟩

/-- C118 fails for threads that call `update` (as `FrameCameras.get` does): a point can be projected with the rotation before and the
position after. -/
theorem C118_pose_fails (r : R) (t : T) (hd : c.distort = true) :
    Sys.Run e (c, [Th.proj, Th.update r t]) ({ c with rot := r, pos := t }, [Th.pDone c.rot t none, Th.uDone]) ∧
    Sys.Run e (c, [Th.proj, Th.update r t]) ({ c with rot := r, pos := t }, [Th.pDone r c.pos none, Th.uDone]) :=
  ⟨run_of_sched [0, 1, 1, 0, 0] (by simp [sched, step, hd]), run_of_sched [1, 0, 0, 1, 0] (by simp [sched, step, hd])⟩

/-- What a torn pose does: a camera that looks down turns by a quarter and moves one unit.  The point goes to another pixel than it
has before and after. -/
example : let px := fun (R : Frame.M3) (T : Frame.V3) => Frame.dotK 1 (Frame.FrameCam.unitDepth (Frame.FrameCam.camCoords R T ![1, 2, 1]))
    px 1 0 = (1, 2) ∧ px !![0, -1, 0; 1, 0, 0; 0, 0, 1] ![1, 0, 0] = (2, 0) ∧ px 1 ![1, 0, 0] = (0, 2) := by
  simp [Frame.dotK, Frame.FrameCam.unitDepth, Frame.FrameCam.camCoords, Matrix.mulVec, dotProduct, Fin.sum_univ_three]

end fails

end Verif.Threads
