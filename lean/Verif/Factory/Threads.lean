import Verif.Factory.Frame
import Mathlib.Logic.Relation

/-!
# C118: a camera factory in several threads

`FrameCameras.get` as its loads and stores of `_cameras` and of the pose of camera objects, followed by uses of the camera that it
returns, in any interleaving of threads.  The pose is one field here (`_R` and `_T` are two, see `Frame/Threads.lean`).
-/

set_option autoImplicit false

namespace Verif.Factory

open Res (ok_bind error_bind)

variable {I J P X : Type}

/-- A thread that gets the camera of an image and uses it `n` times, by the line that comes next. -/
inductive Th (I J P X : Type)
  /-- `get`, orthority/factory.py:205-226: parameters that no method changes. -/
  | get (f : String) (n : ℕ)
  /-- Before `if cam_id not in self._cameras`, orthority/factory.py:228. -/
  | look (e : ExtParam X) (i : I) (n : ℕ)
  /-- Before `create_camera`, orthority/factory.py:229. -/
  | make (e : ExtParam X) (i : I) (n : ℕ)
  /-- Before the store in `self._cameras`, orthority/factory.py:229. -/
  | put (e : ExtParam X) (n r : ℕ)
  /-- Before the load of `self._cameras[cam_id]`, orthority/factory.py:232. -/
  | load (e : ExtParam X) (n : ℕ)
  /-- Before the stores of `update`, orthority/factory.py:232 and orthority/camera.py:814. -/
  | upd (e : ExtParam X) (n r : ℕ)
  /-- Before the load of `self._cameras[cam_id]`, orthority/factory.py:234. -/
  | ret (e : ExtParam X) (n : ℕ)
  /-- `n` uses of the camera left (e.g. projections of tiles), with what it was in the uses before. -/
  | use (r n : ℕ) (seen : List (Cam J P))
  | done (seen : List (Cam J P))
  | raised (err : PyErr)

/-- The next load or store of a thread. -/
def FrameEnv.stepTh (env : FrameEnv I J P X) (s : FrameState J P) : Th I J P X → Option (FrameState J P × Th I J P X)
  | .get f n => some (s, match env.ext f with
    | .error x => .raised x
    | .ok e => match env.int e.camera with
      | .error x => .raised x
      | .ok i => .look e i n)
  | .look e i n => some (s, match Dict.get? s.cams e.camera with
    | some _ => .load e n
    | none => .make e i n)
  | .make e i n => match env.create i with
    | .error x => some (s, .raised x)
    | .ok c => some (⟨s.heap ++ [c], s.cams⟩, .put e n s.heap.length)
  | .put e n r => some (⟨s.heap, Dict.set s.cams e.camera r⟩, .load e n)
  | .load e n => some (s, match Dict.get? s.cams e.camera with
    | some r => .upd e n r
    | none => .raised .keyError)
  | .upd e n r => match env.newPose e with
    | .error x => some (s, .raised x)
    | .ok p => some (s.update r p, .ret e n)
  | .ret e n => some (s, match Dict.get? s.cams e.camera with
    | some r => .use r n []
    | none => .raised .keyError)
  | .use _ 0 seen => some (s, .done seen)
  | .use r (n + 1) seen => some (s, .use r n (seen ++ s.heap[r]?.toList))
  | .done _ => none
  | .raised _ => none

/-- A factory and the threads that use it. -/
abbrev Sys (I J P X : Type) := FrameState J P × List (Th I J P X)

/-- One thread does its next load or store. -/
def FrameEnv.Next (env : FrameEnv I J P X) (s s' : Sys I J P X) : Prop :=
  ∃ i t c' t', s.2[i]? = some t ∧ env.stepTh s.1 t = some (c', t') ∧ s' = (c', s.2.set i t')

/-- Any interleaving. -/
abbrev FrameEnv.Run (env : FrameEnv I J P X) : Sys I J P X → Sys I J P X → Prop := Relation.ReflTransGen env.Next

/-- What is known of a thread for image `f` that uses its camera `n` times. -/
def Loc (env : FrameEnv I J P X) (s : FrameState J P) (f : String) (n : ℕ) : Th I J P X → Prop
  | .get f' n' => f' = f ∧ n' = n
  | .look e i n' => n' = n ∧ env.ext f = .ok e ∧ env.int e.camera = .ok i
  | .make e i n' => n' = n ∧ env.ext f = .ok e ∧ env.int e.camera = .ok i
  | .put e n' r => n' = n ∧ env.ext f = .ok e ∧ (∃ i c, env.int e.camera = .ok i ∧ env.create i = .ok c ∧ s.heap[r]? = some c) ∧
      ∀ id, Dict.get? s.cams id ≠ some r
  | .load e n' => n' = n ∧ env.ext f = .ok e ∧ ∃ r, Dict.get? s.cams e.camera = some r
  | .upd e n' r => n' = n ∧ env.ext f = .ok e ∧ Dict.get? s.cams e.camera = some r
  | .ret e n' => n' = n ∧ env.ext f = .ok e ∧ ∃ r c, Dict.get? s.cams e.camera = some r ∧ env.spec f = .ok c ∧ s.heap[r]? = some c
  | .use r k seen => ∃ e c, env.ext f = .ok e ∧ Dict.get? s.cams e.camera = some r ∧ env.spec f = .ok c ∧ s.heap[r]? = some c ∧
      k ≤ n ∧ seen = List.replicate (n - k) c
  | .done seen => ∃ c, env.spec f = .ok c ∧ seen = List.replicate n c
  | .raised x => env.spec f = .error x

theorem Loc.keep {env : FrameEnv I J P X} {s s' : FrameState J P} {f : String} {n : ℕ} {t : Th I J P X} (h : Loc env s f n t)
    (h1 : ∀ e, env.ext f = .ok e → Dict.get? s'.cams e.camera = Dict.get? s.cams e.camera)
    (h2 : ∀ e r, env.ext f = .ok e → Dict.get? s.cams e.camera = some r → s'.heap[r]? = s.heap[r]?)
    (h3 : ∀ e m r, t = .put e m r → s'.heap[r]? = s.heap[r]? ∧ ∀ id, Dict.get? s'.cams id ≠ some r) : Loc env s' f n t := by
  cases t with
  | get f' n' => exact h
  | look e i n' => exact h
  | make e i n' => exact h
  | put e n' r =>
    obtain ⟨a, b, ⟨i, c, hi, hc, hh⟩, _⟩ := h
    obtain ⟨h4, h5⟩ := h3 e n' r rfl
    exact ⟨a, b, ⟨i, c, hi, hc, h4 ▸ hh⟩, h5⟩
  | load e n' =>
    obtain ⟨a, b, r, hr⟩ := h
    exact ⟨a, b, r, (h1 e b).trans hr⟩
  | upd e n' r =>
    obtain ⟨a, b, hr⟩ := h
    exact ⟨a, b, (h1 e b).trans hr⟩
  | ret e n' =>
    obtain ⟨a, b, r, c, hr, hs, hc⟩ := h
    exact ⟨a, b, r, c, (h1 e b).trans hr, hs, (h2 e r b hr).trans hc⟩
  | use r k seen =>
    obtain ⟨e, c, b, hr, hs, hc, hk⟩ := h
    exact ⟨e, c, b, (h1 e b).trans hr, hs, (h2 e r b hr).trans hc, hk⟩
  | done seen => exact h
  | raised x => exact h

/-- The camera of an image, when its parameters are there. -/
theorem spec_eq {env : FrameEnv I J P X} {f : String} {e : ExtParam X} {i : I} (he : env.ext f = .ok e) (hi : env.int e.camera = .ok i) :
    env.spec f = (do let c ← env.create i; let p ← env.newPose e; return ⟨c.int, p⟩) := by
  unfold FrameEnv.spec
  rw [he]
  simp only [ok_bind]
  rw [hi]
  rfl

/-- A step of a thread: its own state, and what it changes of the factory. -/
theorem own {env : FrameEnv I J P X} {s s' : FrameState J P} {f : String} {n : ℕ} {t t' : Th I J P X} (hs : Inv env s)
    (h : Loc env s f n t) (hst : env.stepTh s t = some (s', t')) :
    Inv env s' ∧ Loc env s' f n t' ∧
    (s' = s ∧ (∀ e m r, t' ≠ .put e m r) ∨
      (∃ c, s' = ⟨s.heap ++ [c], s.cams⟩ ∧ ∀ e m r, t' = .put e m r → r = s.heap.length) ∨
      (∃ e m r, t = .put e m r ∧ env.ext f = .ok e ∧ s' = ⟨s.heap, Dict.set s.cams e.camera r⟩ ∧ ∀ e m r, t' ≠ .put e m r) ∨
      (∃ e r p, env.ext f = .ok e ∧ Dict.get? s.cams e.camera = some r ∧ s' = s.update r p ∧ ∀ e m r, t' ≠ .put e m r)) := by
  cases t with
  | get f' n' =>
    obtain ⟨rfl, rfl⟩ := h
    simp only [FrameEnv.stepTh, Option.some.injEq, Prod.mk.injEq] at hst
    obtain ⟨rfl, rfl⟩ := hst
    cases he : env.ext f' with
    | error x => exact ⟨hs, by rw [Loc, FrameEnv.spec, he]; rfl, Or.inl ⟨rfl, by simp⟩⟩
    | ok e =>
      simp only
      cases hi : env.int e.camera with
      | error x => exact ⟨hs, by rw [Loc, FrameEnv.spec, he, ok_bind, hi]; rfl, Or.inl ⟨trivial, by simp⟩⟩
      | ok i => exact ⟨hs, ⟨rfl, he, hi⟩, Or.inl ⟨trivial, by simp⟩⟩
  | look e i n' =>
    obtain ⟨rfl, he, hi⟩ := h
    simp only [FrameEnv.stepTh, Option.some.injEq, Prod.mk.injEq] at hst
    obtain ⟨rfl, rfl⟩ := hst
    cases hc : Dict.get? s.cams e.camera with
    | some r => exact ⟨hs, ⟨rfl, he, r, hc⟩, Or.inl ⟨rfl, by simp⟩⟩
    | none => exact ⟨hs, ⟨rfl, he, hi⟩, Or.inl ⟨rfl, by simp⟩⟩
  | make e i n' =>
    obtain ⟨rfl, he, hi⟩ := h
    simp only [FrameEnv.stepTh] at hst
    cases hc : env.create i with
    | error x =>
      rw [hc] at hst
      simp only [Option.some.injEq, Prod.mk.injEq] at hst
      obtain ⟨rfl, rfl⟩ := hst
      exact ⟨hs, by rw [Loc, spec_eq he hi, hc]; rfl, Or.inl ⟨rfl, by simp⟩⟩
    | ok c =>
      rw [hc] at hst
      simp only [Option.some.injEq, Prod.mk.injEq] at hst
      obtain ⟨rfl, rfl⟩ := hst
      have hlt : ∀ id r, Dict.get? s.cams id = some r → r < s.heap.length := by
        intro id r h'
        obtain ⟨i1, c1, c2, h1, h2, h3, h4⟩ := hs.cached id r h'
        exact (List.getElem?_eq_some_iff.1 h3).1
      refine ⟨⟨?_, hs.inj⟩, ⟨rfl, he, ⟨i, c, hi, hc, by simp⟩, ?_⟩, Or.inr (Or.inl ⟨c, rfl, ?_⟩)⟩
      · intro id r h'
        obtain ⟨i1, c1, c2, h1, h2, h3, h4⟩ := hs.cached id r h'
        exact ⟨i1, c1, c2, h1, h2, by rw [List.getElem?_append_left (hlt id r h')]; exact h3, h4⟩
      · intro id h'
        exact absurd (hlt id _ h') (Nat.lt_irrefl _)
      · intro e' m r h'
        simp only [Th.put.injEq] at h'
        exact h'.2.2.symm
  | put e n' r =>
    obtain ⟨rfl, he, ⟨i, c, hi, hc, hh⟩, hfr⟩ := h
    simp only [FrameEnv.stepTh, Option.some.injEq, Prod.mk.injEq] at hst
    obtain ⟨rfl, rfl⟩ := hst
    refine ⟨⟨?_, ?_⟩, ⟨rfl, he, r, by simp [Dict.get?_set]⟩, Or.inr (Or.inr (Or.inl ⟨e, n', r, rfl, he, rfl, by simp⟩))⟩
    · intro id r' h'
      simp only [Dict.get?_set] at h'
      by_cases hid : e.camera = id
      · subst hid
        simp only [if_true, Option.some.injEq] at h'
        subst h'
        exact ⟨i, c, c, hi, hc, hh, rfl⟩
      · rw [if_neg hid] at h'
        exact hs.cached id r' h'
    · intro id1 id2 r' h1 h2
      simp only [Dict.get?_set] at h1 h2
      by_cases he1 : e.camera = id1 <;> by_cases he2 : e.camera = id2
      · rw [← he1, ← he2]
      · rw [if_pos he1] at h1
        rw [if_neg he2] at h2
        simp only [Option.some.injEq] at h1
        subst h1
        exact absurd h2 (hfr id2)
      · rw [if_pos he2] at h2
        rw [if_neg he1] at h1
        simp only [Option.some.injEq] at h2
        subst h2
        exact absurd h1 (hfr id1)
      · rw [if_neg he1] at h1
        rw [if_neg he2] at h2
        exact hs.inj _ _ _ h1 h2
  | load e n' =>
    obtain ⟨rfl, he, r, hr⟩ := h
    simp only [FrameEnv.stepTh, hr, Option.some.injEq, Prod.mk.injEq] at hst
    obtain ⟨rfl, rfl⟩ := hst
    exact ⟨hs, ⟨rfl, he, hr⟩, Or.inl ⟨rfl, by simp⟩⟩
  | upd e n' r =>
    obtain ⟨rfl, he, hr⟩ := h
    obtain ⟨i, c, c', hi, hc, hh, hint⟩ := hs.cached _ _ hr
    simp only [FrameEnv.stepTh] at hst
    cases hp : env.newPose e with
    | error x =>
      rw [hp] at hst
      simp only [Option.some.injEq, Prod.mk.injEq] at hst
      obtain ⟨rfl, rfl⟩ := hst
      exact ⟨hs, by rw [Loc, spec_eq he hi, hc, ok_bind, hp]; rfl, Or.inl ⟨rfl, by simp⟩⟩
    | ok p =>
      rw [hp] at hst
      simp only [Option.some.injEq, Prod.mk.injEq] at hst
      obtain ⟨rfl, rfl⟩ := hst
      refine ⟨hs.update r p, ⟨rfl, he, r, ⟨c.int, p⟩, hr, ?_, ?_⟩, Or.inr (Or.inr (Or.inr ⟨e, r, p, he, hr, rfl, by simp⟩))⟩
      · rw [spec_eq he hi, hc, ok_bind, hp, ok_bind]
        rfl
      · simp [FrameState.update, hh, hint]
  | ret e n' =>
    obtain ⟨rfl, he, r, c, hr, hsp, hh⟩ := h
    simp only [FrameEnv.stepTh, hr, Option.some.injEq, Prod.mk.injEq] at hst
    obtain ⟨rfl, rfl⟩ := hst
    exact ⟨hs, ⟨e, c, he, hr, hsp, hh, Nat.le_refl _, by simp⟩, Or.inl ⟨rfl, by simp⟩⟩
  | use r k seen =>
    obtain ⟨e, c, he, hr, hsp, hh, hk, hseen⟩ := h
    cases k with
    | zero =>
      simp only [FrameEnv.stepTh, Option.some.injEq, Prod.mk.injEq] at hst
      obtain ⟨rfl, rfl⟩ := hst
      exact ⟨hs, ⟨c, hsp, by simpa using hseen⟩, Or.inl ⟨rfl, by simp⟩⟩
    | succ k =>
      simp only [FrameEnv.stepTh, Option.some.injEq, Prod.mk.injEq] at hst
      obtain ⟨rfl, rfl⟩ := hst
      refine ⟨hs, ⟨e, c, he, hr, hsp, hh, by omega, ?_⟩, Or.inl ⟨rfl, by simp⟩⟩
      rw [hh, hseen]
      have : n - k = n - (k + 1) + 1 := by omega
      rw [this, List.replicate_succ']
      rfl
  | done seen => simp [FrameEnv.stepTh] at hst
  | raised x => simp [FrameEnv.stepTh] at hst

/-- Images whose camera IDs differ. -/
def Apart (env : FrameEnv I J P X) (fs : List (String × ℕ)) : Prop :=
  ∀ (i j : ℕ) (f g : String) (a b : ℕ) (e e' : ExtParam X), i ≠ j → fs[i]? = some (f, a) → fs[j]? = some (g, b) → env.ext f = .ok e → env.ext g = .ok e' → e.camera ≠ e'.camera

/-- The invariant of a factory and its threads. -/
structure SysInv (env : FrameEnv I J P X) (fs : List (String × ℕ)) (s : Sys I J P X) : Prop where
  inv : Inv env s.1
  len : s.2.length = fs.length
  loc : ∀ (i : ℕ) (f : String) (n : ℕ) (t : Th I J P X), fs[i]? = some (f, n) → s.2[i]? = some t → Loc env s.1 f n t
  puts : ∀ (i j : ℕ) (e e' : ExtParam X) (m m' r r' : ℕ), i ≠ j → s.2[i]? = some (.put e m r) → s.2[j]? = some (.put e' m' r') → r ≠ r'

theorem SysInv.next {env : FrameEnv I J P X} {fs : List (String × ℕ)} {s s' : Sys I J P X} (hap : Apart env fs) (h : SysInv env fs s)
    (hn : env.Next s s') : SysInv env fs s' := by
  obtain ⟨i, t, c', t', hi, hst, rfl⟩ := hn
  have hlt : i < s.2.length := (List.getElem?_eq_some_iff.1 hi).1
  obtain ⟨⟨f, n⟩, hf⟩ : ∃ q, fs[i]? = some q := ⟨fs[i]'(h.len ▸ hlt), List.getElem?_eq_getElem _⟩
  have hloc := h.loc i f n t hf hi
  obtain ⟨h1, h2, h3⟩ := own h.inv hloc hst
  have hcase : ∀ (j : ℕ) (u : Th I J P X), (s.2.set i t')[j]? = some u → (j = i ∧ u = t') ∨ (j ≠ i ∧ s.2[j]? = some u) := by
    intro j u hu
    simp only [List.getElem?_set] at hu
    split at hu
    · rename_i hij
      simp only [Option.some.injEq] at hu
      exact Or.inl ⟨hij.symm, hu.symm⟩
    · rename_i hij
      exact Or.inr ⟨Ne.symm hij, hu⟩
  have hin : ∀ (j : ℕ) (e : ExtParam X) (m r : ℕ), s.2[j]? = some (.put e m r) → r < s.1.heap.length ∧ ∀ id, Dict.get? s.1.cams id ≠ some r := by
    intro j e m r hj
    have hjl : j < s.2.length := (List.getElem?_eq_some_iff.1 hj).1
    obtain ⟨⟨g, k⟩, hg⟩ : ∃ q, fs[j]? = some q := ⟨fs[j]'(h.len ▸ hjl), List.getElem?_eq_getElem _⟩
    obtain ⟨_, _, ⟨_, c, _, _, hh⟩, hfr⟩ := h.loc j g k _ hg hj
    exact ⟨(List.getElem?_eq_some_iff.1 hh).1, hfr⟩
  refine ⟨h1, by simpa using h.len, ?_, ?_⟩
  · intro j g k u hg hu
    rcases hcase j u hu with ⟨rfl, rfl⟩ | ⟨hji, hu'⟩
    · rw [hf] at hg
      simp only [Option.some.injEq, Prod.mk.injEq] at hg
      obtain ⟨rfl, rfl⟩ := hg
      exact h2
    · have hl := h.loc j g k u hg hu'
      rcases h3 with ⟨rfl, _⟩ | ⟨c, rfl, _⟩ | ⟨e, m, r, rfl, he, rfl, _⟩ | ⟨e, r, p, he, hr, rfl, _⟩
      · exact hl
      · refine hl.keep (fun _ _ => rfl) ?_ ?_
        · intro e r _ hr
          obtain ⟨_, _, _, _, _, hh, _⟩ := h.inv.cached _ _ hr
          exact List.getElem?_append_left (List.getElem?_eq_some_iff.1 hh).1
        · rintro e m r rfl
          obtain ⟨ha, hb⟩ := hin j e m r hu'
          exact ⟨List.getElem?_append_left ha, hb⟩
      · refine hl.keep ?_ (fun _ _ _ _ => rfl) ?_
        · intro e' he'
          have hne : e.camera ≠ e'.camera := hap i j f g n k e e' (Ne.symm hji) hf hg he he'
          simp [Dict.get?_set, hne]
        · rintro e' m' r' rfl
          refine ⟨rfl, ?_⟩
          intro id hid
          simp only [Dict.get?_set] at hid
          split at hid
          · simp only [Option.some.injEq] at hid
            exact h.puts i j e e' m m' r r' (Ne.symm hji) hi hu' hid
          · exact (hin j e' m' r' hu').2 id hid
      · refine hl.keep (fun _ _ => rfl) ?_ ?_
        · intro e' r' he' hr'
          have hne : e.camera ≠ e'.camera := hap i j f g n k e e' (Ne.symm hji) hf hg he he'
          have hrr : r ≠ r' := by
            rintro rfl
            exact hne (h.inv.inj _ _ _ hr hr')
          simp [FrameState.update, hrr]
        · rintro e' m' r' rfl
          obtain ⟨ha, hb⟩ := hin j e' m' r' hu'
          have hrr : r ≠ r' := by
            rintro rfl
            exact hb _ hr
          exact ⟨by simp [FrameState.update, hrr], hb⟩
  · intro a b e e' m m' r r' hab ha hb
    rcases hcase a _ ha with ⟨rfl, ha'⟩ | ⟨hai, ha'⟩ <;> rcases hcase b _ hb with ⟨rfl, hb'⟩ | ⟨hbi, hb'⟩
    · exact absurd rfl hab
    · rcases h3 with ⟨_, hx⟩ | ⟨c, _, hx⟩ | ⟨_, _, _, _, _, _, hx⟩ | ⟨_, _, _, _, _, _, hx⟩
      · exact absurd ha'.symm (hx e m r)
      · have := hx e m r ha'.symm
        have := (hin b e' m' r' hb').1
        omega
      · exact absurd ha'.symm (hx e m r)
      · exact absurd ha'.symm (hx e m r)
    · rcases h3 with ⟨_, hx⟩ | ⟨c, _, hx⟩ | ⟨_, _, _, _, _, _, hx⟩ | ⟨_, _, _, _, _, _, hx⟩
      · exact absurd hb'.symm (hx e' m' r')
      · have := hx e' m' r' hb'.symm
        have := (hin a e m r ha').1
        omega
      · exact absurd hb'.symm (hx e' m' r')
      · exact absurd hb'.symm (hx e' m' r')
    · exact h.puts a b e e' m m' r r' hab ha' hb'

/-- Threads at the start of `get`. -/
def starts (fs : List (String × ℕ)) : List (Th I J P X) := fs.map fun q => .get q.1 q.2

/-- C118, the part that holds of factories: when threads get cameras of images with different camera IDs from one factory, after any
history of calls, then in any interleaving each use of a camera is of the camera of the thread's own image, and `get` raises what it
raises alone.  Missing: images of one camera (`C118_factory_fails`). -/
theorem C118_factory_partial (env : FrameEnv I J P X) (hist : List String) (fs : List (String × ℕ)) (hap : Apart env fs)
    (s : FrameState J P) (l : List (Th I J P X)) (hr : env.Run (env.run .init hist, starts fs) (s, l)) (i : ℕ) (f : String) (n : ℕ)
    (hf : fs[i]? = some (f, n)) :
    (∀ seen, l[i]? = some (.done seen) → ∃ c, env.spec f = .ok c ∧ seen = List.replicate n c) ∧
    ∀ x, l[i]? = some (.raised x) → env.spec f = .error x := by
  have h0 : SysInv env fs (env.run .init hist, (starts fs : List (Th I J P X))) := by
    refine ⟨(Inv.init env).run hist, by simp [starts], ?_, ?_⟩
    · intro j g k t hg ht
      simp only [starts, List.getElem?_map, hg, Option.map_some, Option.some.injEq] at ht
      subst ht
      exact ⟨rfl, rfl⟩
    · intro a b e e' m m' r r' _ ha _
      simp only [starts, List.getElem?_map, Option.map_eq_some_iff, reduceCtorEq, and_false, exists_false] at ha
  have h1 : SysInv env fs (s, l) := by
    generalize (s, l) = q at hr
    induction hr with
    | refl => exact h0
    | tail _ hn ih => exact ih.next hap hn
  exact ⟨fun seen hi => h1.loc i f n _ hf hi, fun x hi => h1.loc i f n _ hf hi⟩

/-- The threads of a list take their next steps in turn. -/
def FrameEnv.sched (env : FrameEnv I J P X) : Sys I J P X → List ℕ → Sys I J P X
  | s, [] => s
  | s, i :: is => match s.2[i]? with
    | none => env.sched s is
    | some t => match env.stepTh s.1 t with
      | none => env.sched s is
      | some (c', t') => env.sched (c', s.2.set i t') is

theorem sched_run (env : FrameEnv I J P X) (s : Sys I J P X) (is : List ℕ) : env.Run s (env.sched s is) := by
  induction is generalizing s with
  | nil => exact .refl
  | cons i is ih =>
    unfold FrameEnv.sched
    split
    · exact ih s
    · rename_i t ht
      split
      · exact ih s
      · rename_i c' t' hs
        exact .head ⟨i, t, c', t', ht, hs, rfl⟩ (ih _)

/-- Two threads with images of different cameras, both of which make their cameras. -/
example : ∃ s, exEnv.Run (.init, starts [("a.tif", 2), ("e.tif", 1)]) (s, [.done [⟨7, 12⟩, ⟨7, 12⟩], .done [⟨8, 56⟩]]) :=
  ⟨_, sched_run exEnv (.init, starts [("a.tif", 2), ("e.tif", 1)]) [0, 1, 0, 1, 0, 1, 1, 0, 0, 1, 1, 0, 0, 1, 1, 0, 1, 0, 0, 1, 0, 0, 1]⟩

/-- The hypotheses of `C118_factory_partial` hold of these images. -/
example : Apart exEnv [("a.tif", 2), ("e.tif", 1)] := by
  intro i j f g a b e e' hij hf hg he he'
  have ha : exEnv.ext "a.tif" = .ok ⟨some "c", some 1, some 2⟩ := rfl
  have hb : exEnv.ext "e.tif" = .ok ⟨some "d", some 5, some 6⟩ := rfl
  rcases i with _ | _ | i <;> rcases j with _ | _ | j <;> simp at hij hf hg
  · obtain ⟨rfl, rfl⟩ := hf
    obtain ⟨rfl, rfl⟩ := hg
    rw [ha] at he
    rw [hb] at he'
    cases he
    cases he'
    decide
  · obtain ⟨rfl, rfl⟩ := hf
    obtain ⟨rfl, rfl⟩ := hg
    rw [hb] at he
    rw [ha] at he'
    cases he
    cases he'
    decide

/-- C118 fails of factories: two threads get images of one camera.  The second call comes after the first has returned, and before the
first thread uses its camera: the uses have the pose of the other image. -/
theorem C118_factory_fails : ∃ s,
    exEnv.Run (.init, starts [("a.tif", 2), ("b.tif", 1)]) (s, [.done [⟨7, 12⟩, ⟨7, 34⟩], .done [⟨7, 34⟩]]) ∧
    exEnv.spec "a.tif" = .ok ⟨7, 12⟩ :=
  ⟨_, sched_run exEnv (.init, starts [("a.tif", 2), ("b.tif", 1)]) [0, 0, 0, 0, 0, 0, 0, 0, 1, 1, 1, 1, 1, 1, 1, 0, 0], rfl⟩

end Verif.Factory
