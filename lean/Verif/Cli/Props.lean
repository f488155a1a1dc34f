import Verif.Cli.Model
import Mathlib.Tactic.NormNum
import Mathlib.Tactic.Push

/-!
# Command line batches and options (C58, C59)
-/

set_option autoImplicit false
set_option linter.unusedSectionVars false

namespace Verif.Cli

/-! ## Batches (C58) -/

section
variable {C Im : Type}

/-- C58: an ortho is in the output directory, named after the source image. -/
theorem C58_name (outDir stem : String) : (orthoPath outDir stem).toList = outDir.toList ++ '/' :: (stem.toList ++ "_ORTHO.tif".toList) := by
  simp [orthoPath]

/-- C58: different stems give different paths. -/
theorem C58_paths (outDir s t : String) (h : orthoPath outDir s = orthoPath outDir t) : s = t := by
  unfold orthoPath at h
  have h1 := congrArg String.toList h
  simp only [String.toList_append] at h1
  have h2 := List.append_cancel_left h1
  have h3 := List.append_cancel_right h2
  exact String.toList_injective h3

/-- What one image does: the path of its ortho is the only one that changes, and a success writes its complete ortho. -/
theorem orthoOne_spec (proc : Im → C → Proc) (outDir : String) (ow : Bool) (crs : Option C) (fs : Fs C Im) (s : Src C Im) :
    (∀ q, q ≠ orthoPath outDir s.stem → (orthoOne proc outDir ow crs fs s).1 q = fs q) ∧
    (∀ r, (orthoOne proc outDir ow crs fs s).2 = .ok r → ∃ c, (crs <|> s.crs) = some c ∧ r = some c ∧
      (orthoOne proc outDir ow crs fs s).1 (orthoPath outDir s.stem) = some (.done s.im c)) := by
  cases hc : s.cam with
  | error e =>
    simp only [orthoOne, hc]
    exact ⟨fun q _ => trivial, fun r h => by cases h⟩
  | ok u =>
   cases hop : s.opened with
   | error e =>
    simp only [orthoOne, hc, hop]
    exact ⟨fun q _ => trivial, fun r h => by cases h⟩
   | ok u' =>
    cases hcrs : (crs <|> s.crs) with
    | none =>
      simp only [orthoOne, hc, hop, hcrs]
      exact ⟨fun q _ => trivial, fun r h => by cases h⟩
    | some c =>
      cases hp : proc s.im c with
      | raised e =>
        simp only [orthoOne, hc, hop, hcrs, hp]
        exact ⟨fun q _ => trivial, fun r h => by cases h⟩
      | done =>
        by_cases he : (fs (orthoPath outDir s.stem)).isSome = true ∧ ow = false
        · simp only [orthoOne, hc, hop, hcrs, hp, if_pos he]
          exact ⟨fun q _ => trivial, fun r h => by cases h⟩
        · simp only [orthoOne, hc, hop, hcrs, hp, if_neg he]
          refine ⟨fun q hq => if_neg hq, fun r h => ⟨c, rfl, (Except.ok.inj h).symm, if_pos trivial⟩⟩
      | aborted e =>
        by_cases he : (fs (orthoPath outDir s.stem)).isSome = true ∧ ow = false
        · simp only [orthoOne, hc, hop, hcrs, hp, if_pos he]
          exact ⟨fun q _ => trivial, fun r h => by cases h⟩
        · simp only [orthoOne, hc, hop, hcrs, hp, if_neg he]
          exact ⟨fun q hq => if_neg hq, fun r h => by cases h⟩

/-- The CRS variable stays the same when it is set. -/
theorem orthoLoop_frame (proc : Im → C → Proc) (outDir : String) (ow : Bool) (crs : Option C) (fs : Fs C Im)
    (srcs : List (Src C Im)) (q : String) (hq : ∀ s ∈ srcs, orthoPath outDir s.stem ≠ q) :
    (orthoLoop proc outDir ow crs fs srcs).1 q = fs q := by
  induction srcs generalizing crs fs with
  | nil => rfl
  | cons s ss ih =>
    have h1 := (orthoOne_spec proc outDir ow crs fs s).1 q (fun e => hq s (by simp) e.symm)
    rw [orthoLoop]
    cases ho : orthoOne proc outDir ow crs fs s with
    | mk fs' r =>
      rw [ho] at h1
      cases r with
      | error e => exact h1
      | ok c => exact (ih c fs' fun s hs => hq s (by simp [hs])).trans h1

/-- Specification: the CRS of an image in a batch: the option, or else the one in its metadata. -/
def imCrs (option : Option C) (s : Src C Im) : Option C := match option with
  | some c => some c
  | none => s.crs

/-- C58, the part that holds: in a batch that succeeds, with `--crs` (or a CRS from the camera parameters), or with source
images that all have the same CRS, the file of every image whose stem is not used again is its ortho in its CRS.  Missing:
source images with different CRSs or without CRS (`C58_carried_crs_fails`), and same stems (`C58_same_stem_fails`). -/
theorem C58_batch_partial (proc : Im → C → Proc) (outDir : String) (ow : Bool) (option : Option C) (fs fs' : Fs C Im)
    (srcs : List (Src C Im)) (hcrs : option = none → ∀ a ∈ srcs, ∀ b ∈ srcs, a.crs = b.crs)
    (h : orthoLoop proc outDir ow option fs srcs = (fs', .ok ())) (s : Src C Im) (pre post : List (Src C Im))
    (hs : srcs = pre ++ s :: post) (hstem : ∀ t ∈ post, t.stem ≠ s.stem) :
    ∃ c, imCrs option s = some c ∧ fs' (orthoPath outDir s.stem) = some (.done s.im c) := by
  subst hs
  have hgen : ∀ (crs : Option C) (fs : Fs C Im), (∀ t ∈ pre ++ s :: post, (crs <|> t.crs) = imCrs option t) →
      orthoLoop proc outDir ow crs fs (pre ++ s :: post) = (fs', .ok ()) →
      ∃ c, imCrs option s = some c ∧ fs' (orthoPath outDir s.stem) = some (.done s.im c) := by
    clear h fs
    induction pre with
    | nil =>
      intro crs fs hall h
      rw [List.nil_append, orthoLoop] at h
      obtain ⟨-, h2⟩ := orthoOne_spec proc outDir ow crs fs s
      cases ho : orthoOne proc outDir ow crs fs s with
      | mk fs1 r =>
        rw [ho] at h h2
        cases r with
        | error e => cases h
        | ok c =>
          obtain ⟨c', hc, -, hw⟩ := h2 c rfl
          refine ⟨c', by rw [← hall s (by simp)]; exact hc, ?_⟩
          have h3 := orthoLoop_frame proc outDir ow c fs1 post (orthoPath outDir s.stem)
            (fun t ht e => hstem t ht (C58_paths _ _ _ e))
          have h : orthoLoop proc outDir ow c fs1 post = (fs', .ok ()) := h
          rw [h] at h3
          exact h3.trans hw
    | cons p pre ih =>
      intro crs fs hall h
      rw [List.cons_append, orthoLoop] at h
      obtain ⟨-, h2⟩ := orthoOne_spec proc outDir ow crs fs p
      cases ho : orthoOne proc outDir ow crs fs p with
      | mk fs1 r =>
        rw [ho] at h h2
        cases r with
        | error e => cases h
        | ok c =>
          obtain ⟨c', hc, hr, -⟩ := h2 c rfl
          refine ih (fun ho a ha b hb => hcrs ho a (by simp at ha ⊢; tauto) b (by simp at hb ⊢; tauto)) c fs1 ?_ h
          intro t ht
          rw [hr]
          change some c' = imCrs option t
          have hp := hall p (by simp)
          rw [hc] at hp
          rw [hp]
          cases option with
          | some o => rfl
          | none => exact hcrs rfl p (by simp) t (by simp at ht ⊢; tauto)
  refine hgen option fs (fun t _ => ?_) h
  cases option <;> rfl

/-- C58: when a batch fails, the orthos of the images before the failing one are complete, and the paths of the images after
it are not touched. -/
theorem C58_failure (proc : Im → C → Proc) (outDir : String) (ow : Bool) (crs : Option C) (fs fs' : Fs C Im) (e : PyErr)
    (srcs : List (Src C Im)) (h : orthoLoop proc outDir ow crs fs srcs = (fs', .error e)) :
    ∃ pre s post, srcs = pre ++ s :: post ∧
      (∀ p a b, pre = a ++ p :: b → (∀ t ∈ b ++ [s], t.stem ≠ p.stem) →
        ∃ c, fs' (orthoPath outDir p.stem) = some (.done p.im c)) ∧
      (∀ t ∈ post, (∀ p ∈ pre ++ [s], p.stem ≠ t.stem) → fs' (orthoPath outDir t.stem) = fs (orthoPath outDir t.stem)) := by
  have hgen : ∃ pre s post, srcs = pre ++ s :: post ∧
      (∀ p a b, pre = a ++ p :: b → (∀ t ∈ b ++ [s], t.stem ≠ p.stem) →
        ∃ c, fs' (orthoPath outDir p.stem) = some (.done p.im c)) ∧
      (∀ q, (∀ p ∈ pre ++ [s], orthoPath outDir p.stem ≠ q) → fs' q = fs q) := by
    induction srcs generalizing crs fs with
    | nil => cases h
    | cons s ss ih =>
      rw [orthoLoop] at h
      obtain ⟨h1, h2⟩ := orthoOne_spec proc outDir ow crs fs s
      cases ho : orthoOne proc outDir ow crs fs s with
      | mk fs1 r =>
        rw [ho] at h h1 h2
        cases r with
        | error e' =>
          have h : (fs1, (Except.error e' : Res Unit)) = (fs', .error e) := h
          rw [Prod.mk.injEq] at h
          refine ⟨[], s, ss, rfl, ?_, ?_⟩
          · intro p a b hab
            simp at hab
          · intro q hq
            rw [← h.1]
            exact h1 q fun e => hq s (by simp) e.symm
        | ok c =>
          obtain ⟨c', -, -, hw⟩ := h2 c rfl
          obtain ⟨pre, x, post, hs, hd, hf⟩ := ih c fs1 h
          refine ⟨s :: pre, x, post, by rw [hs]; rfl, ?_, ?_⟩
          · intro p a b hab hst
            cases a with
            | nil =>
              rw [List.nil_append, List.cons.injEq] at hab
              obtain ⟨rfl, rfl⟩ := hab
              exact ⟨c', by rw [hf _ fun t ht e => hst t ht (C58_paths _ _ _ e)]; exact hw⟩
            | cons y a =>
              rw [List.cons_append, List.cons.injEq] at hab
              exact hd p a b hab.2 hst
          · intro q hq
            rw [hf q fun p hp => hq p (by simp at hp ⊢; tauto)]
            exact h1 q fun e => hq s (by simp) e.symm
  obtain ⟨pre, s, post, hs, hd, hf⟩ := hgen
  exact ⟨pre, s, post, hs, hd, fun t _ hp => hf _ fun p hpm e => hp p hpm (C58_paths _ _ _ e)⟩

/-- C58: without `--overwrite` no existing file changes, whatever happens. -/
theorem C58_no_overwrite (proc : Im → C → Proc) (outDir : String) (crs : Option C) (fs : Fs C Im) (srcs : List (Src C Im))
    (q : String) (x : Out C Im) (hq : fs q = some x) : (orthoLoop proc outDir false crs fs srcs).1 q = some x := by
  induction srcs generalizing crs fs with
  | nil => exact hq
  | cons s ss ih =>
    have h1 : (orthoOne proc outDir false crs fs s).1 q = some x := by
      by_cases hp : q = orthoPath outDir s.stem
      · subst hp
        unfold orthoOne
        cases s.cam with
        | error e => exact hq
        | ok u =>
         simp only
         cases s.opened with
         | error e => exact hq
         | ok u' =>
          simp only
          cases (crs <|> s.crs) with
          | none => exact hq
          | some c =>
            simp only
            cases proc s.im c with
            | raised e => exact hq
            | done => simp only [hq, Option.isSome_some, true_and, if_true]
            | aborted e => simp only [hq, Option.isSome_some, true_and, if_true]
      · rw [(orthoOne_spec proc outDir false crs fs s).1 q hp, hq]
    rw [orthoLoop]
    cases ho : orthoOne proc outDir false crs fs s with
    | mk fs' r =>
      rw [ho] at h1
      cases r with
      | error e => exact h1
      | ok c => exact ih c fs' h1

/-- C58: an invalid DEM band is a usage error, and nothing is written. -/
theorem C58_dem_band (proc : Im → C → Proc) (outDir : String) (ow : Bool) (crs : Option C) (band : ℤ) (count : ℕ) (fs : Fs C Im)
    (srcs : List (Src C Im)) (h : ¬ (1 ≤ band ∧ band ≤ count)) :
    ortho proc outDir ow crs band count fs srcs = (fs, .error .badParameter) := by
  unfold ortho checkBand
  rw [if_pos (by omega)]

/-- C58: without `--crs`, the CRS of the first image is used for all: an image with another CRS gets an ortho in the wrong
CRS, and one without CRS, which alone is an error, is accepted. -/
theorem C58_carried_crs_fails (c d : C) (a b : Im) :
    ∃ (proc : Im → C → Proc) (srcs : List (Src C Im)) (fs' : Fs C Im), srcs.map Src.crs = [some c, some d, none] ∧
      orthoLoop proc "o" false none (fun _ => none) srcs = (fs', .ok ()) ∧
      fs' (orthoPath "o" "2") = some (.done b c) ∧ fs' (orthoPath "o" "3") = some (.done b c) ∧
      (orthoLoop proc "o" false none (fun _ => none) [⟨b, "2", some d, .ok (), .ok ()⟩]).1 (orthoPath "o" "2") = some (.done b d) ∧
      (orthoLoop proc "o" false none (fun _ => none) [⟨b, "3", none, .ok (), .ok ()⟩]).2 = .error .missingParameter := by
  have h12 : ¬ orthoPath "o" "2" = orthoPath "o" "1" := by decide +kernel
  have h13 : ¬ orthoPath "o" "3" = orthoPath "o" "1" := by decide +kernel
  have h23 : ¬ orthoPath "o" "2" = orthoPath "o" "3" := by decide +kernel
  have h32 : ¬ orthoPath "o" "3" = orthoPath "o" "2" := by decide +kernel
  refine ⟨fun _ _ => .done, [⟨a, "1", some c, .ok (), .ok ()⟩, ⟨b, "2", some d, .ok (), .ok ()⟩, ⟨b, "3", none, .ok (), .ok ()⟩],
    fun q => if q = orthoPath "o" "3" then some (.done b c) else if q = orthoPath "o" "2" then some (.done b c) else
      if q = orthoPath "o" "1" then some (.done a c) else none, rfl, ?_, ?_, ?_, ?_, ?_⟩
  · simp [orthoLoop, orthoOne, h12, h13, h32]
  · simp [h23]
  · simp
  · simp [orthoLoop, orthoOne]
  · simp [orthoLoop, orthoOne]

/-- C58: images with the same stem share a path: with `--overwrite` the ortho of the first is lost, and without it the batch
fails at the second. -/
theorem C58_same_stem_fails (c : C) (a b : Im) :
    let srcs : List (Src C Im) := [⟨a, "x", none, .ok (), .ok ()⟩, ⟨b, "x", none, .ok (), .ok ()⟩]
    (orthoLoop (fun _ _ => .done) "o" true (some c) (fun _ => none) srcs).1 (orthoPath "o" "x") = some (.done b c) ∧
    (orthoLoop (fun _ _ => .done) "o" true (some c) (fun _ => none) srcs).2 = .ok () ∧
    (orthoLoop (fun _ _ => .done) "o" false (some c) (fun _ => none) srcs).2 = .error .clickException := by
  refine ⟨?_, ?_, ?_⟩
  · simp [orthoLoop, orthoOne]
  · simp [orthoLoop, orthoOne]
  · simp [orthoLoop, orthoOne, usage]

end

/-- C58: the legacy command writes the orthos of images in different directories to the directory of the first, when no
directory is given. -/
theorem C58_legacy_dir_fails : simplePaths none [("a", "1"), ("b", "2")] = [orthoPath "a" "1", orthoPath "a" "2"] := by
  decide +kernel

/-- C58: with a directory, all legacy orthos go there, named after their images. -/
theorem C58_legacy_dir (d : String) (hd : d ≠ "") (l : List (String × String)) :
    simplePaths (some d) l = l.map fun p => orthoPath d p.2 := by
  induction l with
  | nil => rfl
  | cons p l ih =>
    obtain ⟨a, b⟩ := p
    simp only [simplePaths, if_neg hd, ih, List.map_cons]

example : ∃ fs', orthoLoop (C := ℕ) (Im := ℕ) (fun _ _ => .done) "o" false (some 7) (fun _ => none)
    [⟨1, "x", some 3, .ok (), .ok ()⟩, ⟨2, "y", none, .ok (), .ok ()⟩] = (fs', .ok ()) ∧ fs' (orthoPath "o" "x") = some (.done 1 7) := by
  have h1 : ¬ orthoPath "o" "x" = orthoPath "o" "y" := by decide +kernel
  have h2 : ¬ orthoPath "o" "y" = orthoPath "o" "x" := by decide +kernel
  refine ⟨fun q => if q = orthoPath "o" "y" then some (.done 2 7) else if q = orthoPath "o" "x" then some (.done 1 7) else none,
    ?_, ?_⟩
  · simp [orthoLoop, orthoOne, h2]
  · simp [h1]

/-! ## Options (C59) -/

section
variable {K : Type}

/-- C59: no resolution stays none, one is used for both axes, two are width and height, and more are a usage error. -/
theorem C59_resolution (res : List K) :
    (res.length = 0 → resolutionCb res = .ok []) ∧ (∀ r, res = [r] → resolutionCb res = .ok [r, r]) ∧
    (∀ a b, res = [a, b] → resolutionCb res = .ok [a, b]) ∧ (2 < res.length → resolutionCb res = .error .badParameter) := by
  refine ⟨?_, ?_, ?_, ?_⟩
  · intro h; rw [List.length_eq_zero_iff] at h; subst h; rfl
  · rintro r rfl; rfl
  · rintro a b rfl; rfl
  · intro h
    match res, h with
    | _ :: _ :: _ :: _, _ => rfl

/-- C59: weights are passed on as typed when none is negative, and are a usage error otherwise. -/
theorem C59_weights [Field K] [LinearOrder K] (l : List (Option K)) :
    (weightsCb (some l) = .ok (some l) ↔ ∀ x ∈ l, ∀ y, x = some y → 0 ≤ y) ∧
    (weightsCb (some l) = .error .badParameter ↔ ∃ y, some y ∈ l ∧ y < 0) ∧ weightsCb (none : Option (List (Option K))) = .ok none := by
  have hany : l.any (fun x => match x with | some x => decide (x < 0) | none => false) = true ↔ ∃ y, some y ∈ l ∧ y < 0 := by
    rw [List.any_eq_true]
    constructor
    · rintro ⟨x, hx, h⟩
      cases x with
      | none => simp at h
      | some y => exact ⟨y, hx, by simpa using h⟩
    · rintro ⟨y, hy, h⟩
      exact ⟨some y, hy, by simpa using h⟩
  have hw : weightsCb (some l) = if l.any (fun x => match x with | some x => decide (x < 0) | none => false) then
      .error .badParameter else .ok (some l) := rfl
  rw [hw]
  refine ⟨?_, ?_, rfl⟩
  · by_cases hc : ∃ y, some y ∈ l ∧ y < 0
    · rw [if_pos (hany.2 hc)]
      constructor
      · intro h; cases h
      · intro h
        obtain ⟨y, hy, hlt⟩ := hc
        exact absurd (h _ hy y rfl) (not_le.2 hlt)
    · rw [if_neg (fun h => hc (hany.1 h))]
      push Not at hc
      exact ⟨fun _ x hx y hxy => hc y (hxy ▸ hx), fun _ => rfl⟩
  · by_cases hc : ∃ y, some y ∈ l ∧ y < 0
    · rw [if_pos (hany.2 hc)]; exact ⟨fun _ => hc, fun _ => rfl⟩
    · rw [if_neg (fun h => hc (hany.1 h))]
      exact ⟨fun h => (by cases h), fun h => absurd h hc⟩

/-- C59: band numbers are accepted exactly when they are bands of the image. -/
theorem C59_bands (bands : List ℤ) (count : ℕ) :
    (checkBands bands count = .ok () ↔ ∀ b ∈ bands, 1 ≤ b ∧ b ≤ count) ∧
    (checkBands bands count = .error .badParameter ↔ ∃ b ∈ bands, ¬ (1 ≤ b ∧ b ≤ count)) ∧
    (∀ b, checkBand b count = .ok () ↔ 1 ≤ b ∧ b ≤ count) ∧
    (∀ b, checkBand b count = .error .badParameter ↔ ¬ (1 ≤ b ∧ b ≤ count)) := by
  have hl : 0 < (bands.filter fun b : ℤ => decide (b ≤ 0 ∨ b > (count : ℤ))).length ↔ ∃ b ∈ bands, ¬ (1 ≤ b ∧ b ≤ count) := by
    rw [List.length_pos_iff_exists_mem]
    constructor
    · rintro ⟨b, hb⟩
      rw [List.mem_filter, decide_eq_true_iff] at hb
      exact ⟨b, hb.1, by have := hb.2; omega⟩
    · rintro ⟨b, hb, h⟩
      exact ⟨b, List.mem_filter.2 ⟨hb, by rw [decide_eq_true_iff]; omega⟩⟩
  refine ⟨?_, ?_, ?_, ?_⟩
  · unfold checkBands
    by_cases hc : ∃ b ∈ bands, ¬ (1 ≤ b ∧ b ≤ count)
    · rw [if_pos (hl.2 hc)]
      refine ⟨fun h => (by cases h), fun h => ?_⟩
      obtain ⟨b, hb, hn⟩ := hc
      exact absurd (h b hb) hn
    · rw [if_neg (fun h => hc (hl.1 h))]
      refine ⟨fun _ b hb => ?_, fun _ => rfl⟩
      by_contra hn
      exact hc ⟨b, hb, hn⟩
  · unfold checkBands
    by_cases hc : ∃ b ∈ bands, ¬ (1 ≤ b ∧ b ≤ count)
    · rw [if_pos (hl.2 hc)]; exact ⟨fun _ => hc, fun _ => rfl⟩
    · rw [if_neg (fun h => hc (hl.1 h))]; exact ⟨fun h => (by cases h), fun h => absurd h hc⟩
  · intro b
    unfold checkBand
    by_cases hc : b ≤ 0 ∨ b > (count : ℤ)
    · rw [if_pos hc]; exact ⟨fun h => (by cases h), fun h => by omega⟩
    · rw [if_neg hc]; exact ⟨fun _ => by omega, fun _ => rfl⟩
  · intro b
    unfold checkBand
    by_cases hc : b ≤ 0 ∨ b > (count : ℤ)
    · rw [if_pos hc]; exact ⟨fun _ => by omega, fun _ => rfl⟩
    · rw [if_neg hc]; exact ⟨fun h => (by cases h), fun h => by omega⟩

end

section
variable {V : Type}

theorem splitEq_append (k v : List Char) (hk : '=' ∉ k) : splitEq (k ++ '=' :: v) = some (k, v) := by
  induction k with
  | nil => simp [splitEq]
  | cons c k ih =>
    rw [List.mem_cons, not_or] at hk
    rw [List.cons_append, splitEq, if_neg (fun e => hk.1 e.symm), ih hk.2]

theorem splitEq_none (p : List Char) : splitEq p = none ↔ '=' ∉ p := by
  induction p with
  | nil => simp [splitEq]
  | cons c p ih =>
    rw [splitEq]
    by_cases hc : c = '='
    · simp [hc]
    · rw [if_neg hc]
      cases hs : splitEq p with
      | none => simp [ih.1 hs, Ne.symm (a := c) (b := '=') hc]
      | some x =>
        have : '=' ∈ p := by by_contra hn; rw [← ih] at hn; rw [hn] at hs; cases hs
        simp [this]

/-- Specification: text without capital letters, and without white space at either end. -/
def Plain (s : List Char) : Prop :=
  (∀ c ∈ s, c.isUpper = false) ∧ (∀ c, s.head? = some c → c.isWhitespace = false) ∧
  ∀ c, s.getLast? = some c → c.isWhitespace = false

theorem dropWhile_head {p : Char → Bool} {s : List Char} (h : ∀ c, s.head? = some c → p c = false) : s.dropWhile p = s := by
  cases s with
  | nil => rfl
  | cons c s => rw [List.dropWhile_cons, h c rfl]; rfl

theorem Plain.eq {s : List Char} (h : Plain s) : stripWs (lower s) = s := by
  have hl : lower s = s := by
    unfold lower
    conv_rhs => rw [← List.map_id s]
    refine List.map_congr_left fun c hc => ?_
    have := h.1 c hc
    unfold Char.isUpper at this
    unfold Char.toLower
    rw [dif_neg]
    · rfl
    · intro hu
      exact absurd (decide_eq_true hu) (by rw [this]; decide)
  rw [hl]
  unfold stripWs
  rw [dropWhile_head h.2.1, dropWhile_head, List.reverse_reverse]
  intro c hc
  exact h.2.2 c (by rwa [List.head?_reverse] at hc)

/-- Specification: the value of an option: none for these three words, and otherwise what YAML makes of the text. -/
def OptionValue {V : Type} (yaml : List Char → Option V) (v : List Char) (x : Option V) : Prop :=
  if v ∈ ["none".toList, "null".toList, "nil".toList] then x = none else ∃ y, yaml v = some y ∧ x = some y

theorem OptionValue.eq {V : Type} {yaml : List Char → Option V} {v : List Char} {x : Option V} (h : OptionValue yaml v x) :
    optValue yaml v = .ok x := by
  unfold OptionValue at h
  unfold optValue
  have e : v ∈ ["none".toList, "null".toList, "nil".toList] ↔ v = "none".toList ∨ v = "null".toList ∨ v = "nil".toList := by
    simp only [List.mem_cons, List.not_mem_nil, or_false]
  split at h
  · rename_i hm
    rw [if_pos (e.1 hm), h]
  · rename_i hm
    obtain ⟨y, hy, rfl⟩ := h
    rw [if_neg fun hn => hm (e.2 hn), hy]

theorem creationLoop_ok (yaml : List Char → Option V) (opts : List (List Char × List Char)) (d : Dict (List Char) (Option V))
    (hk : ∀ o ∈ opts, '=' ∉ o.1 ∧ Plain o.1 ∧ Plain o.2) (val : List Char → Option V)
    (hv : ∀ o ∈ opts, optValue yaml o.2 = .ok (val o.2)) :
    creationLoop yaml d (opts.map fun o => o.1 ++ '=' :: o.2) =
      .ok (opts.foldl (fun d o => d.set o.1 (val o.2)) d) := by
  induction opts generalizing d with
  | nil => rfl
  | cons o opts ih =>
    obtain ⟨h1, h2, h3⟩ := hk o (by simp)
    rw [List.map_cons, creationLoop, splitEq_append _ _ h1]
    simp only
    rw [h3.eq, h2.eq, hv o (by simp), Res.ok_bind,
      ih _ (fun p hp => hk p (by simp [hp])) fun p hp => hv p (by simp [hp])]
    rfl

theorem foldl_set_get (opts : List (List Char × List Char)) (val : List Char → Option V) (d : Dict (List Char) (Option V))
    (k : List Char) (h : ∀ o ∈ opts, o.1 ≠ k) :
    Dict.get? (opts.foldl (fun d o => d.set o.1 (val o.2)) d) k = Dict.get? d k := by
  induction opts generalizing d with
  | nil => rfl
  | cons o opts ih =>
    rw [List.foldl_cons, ih _ fun p hp => h p (by simp [hp]), Dict.get?_set, if_neg (h o (by simp))]

/-- C59, the part that holds: options `KEY=VALUE` in lower case and without white space around them give the value typed for
each key, the last one when a key is repeated; keys that were not typed are not set.  Missing: values in upper case
(`C59_case_fails`) and values that are not YAML (`C59_yaml_fails`). -/
theorem C59_creation_partial (yaml : List Char → Option V) (opts : List (List Char × List Char))
    (hk : ∀ o ∈ opts, '=' ∉ o.1 ∧ Plain o.1 ∧ Plain o.2) (val : List Char → Option V)
    (hv : ∀ o ∈ opts, OptionValue yaml o.2 (val o.2)) :
    ∃ d, creationCb yaml (opts.map fun o => o.1 ++ '=' :: o.2) = .ok d ∧
      (∀ pre o post, opts = pre ++ o :: post → (∀ p ∈ post, p.1 ≠ o.1) → d.get? o.1 = some (val o.2)) ∧
      (∀ k, (∀ o ∈ opts, o.1 ≠ k) → d.get? k = none) := by
  refine ⟨_, creationLoop_ok yaml opts [] hk val (fun o ho => (hv o ho).eq), ?_, ?_⟩
  · intro pre o post ho hp
    rw [ho, List.foldl_append, List.foldl_cons, foldl_set_get post val _ o.1 hp, Dict.get?_set, if_pos rfl]
  · intro k h
    rw [foldl_set_get opts val [] k h]
    rfl

/-- C59: an option without `=` is a usage error, when the options before it are valid. -/
theorem C59_no_equals (yaml : List Char → Option V) (opts : List (List Char × List Char))
    (hk : ∀ o ∈ opts, '=' ∉ o.1 ∧ Plain o.1 ∧ Plain o.2) (val : List Char → Option V)
    (hv : ∀ o ∈ opts, OptionValue yaml o.2 (val o.2)) (p : List Char) (hp : '=' ∉ p) (rest : List (List Char)) :
    creationCb yaml ((opts.map fun o => o.1 ++ '=' :: o.2) ++ p :: rest) = .error .badParameter := by
  unfold creationCb
  have : ∀ d : Dict (List Char) (Option V),
      creationLoop yaml d ((opts.map fun o => o.1 ++ '=' :: o.2) ++ p :: rest) = .error .badParameter := by
    induction opts with
    | nil =>
      intro d
      rw [List.map_nil, List.nil_append, creationLoop, (splitEq_none p).2 hp]
    | cons o opts ih =>
      intro d
      obtain ⟨h1, h2, h3⟩ := hk o (by simp)
      rw [List.map_cons, List.cons_append, creationLoop, splitEq_append _ _ h1]
      simp only
      rw [h3.eq, (hv o (by simp)).eq, Res.ok_bind]
      exact ih (fun p hp => hk p (by simp [hp])) (fun p hp => hv p (by simp [hp])) _
  exact this []

/-- C59: upper case letters of a value are lost, so a value that differs only in case gives the same option. -/
theorem C59_case_fails (yaml : List Char → Option V) :
    creationCb yaml ["name=Ab".toList] = creationCb yaml ["name=ab".toList] := by
  have h1 : splitEq "name=Ab".toList = some ("name".toList, ['A', 'b']) := by decide +kernel
  have h2 : splitEq "name=ab".toList = some ("name".toList, ['a', 'b']) := by decide +kernel
  have h3 : lower ['A', 'b'] = lower ['a', 'b'] := by decide +kernel
  simp only [creationCb, creationLoop, h1, h2, h3]

/-- C59: a value that is not YAML is not a usage error. -/
theorem C59_yaml_fails (yaml : List Char → Option V) (h : yaml ['{'] = none) :
    creationCb yaml ["name={".toList] = .error .valueError := by
  have e : optValue yaml (stripWs (lower ['{'])) = .error .valueError := by
    have : stripWs (lower ['{']) = ['{'] := by decide +kernel
    rw [this]
    unfold optValue
    rw [if_neg (by decide), h]
  have hs : splitEq "name={".toList = some ("name".toList, ['{']) := by decide +kernel
  simp only [creationCb, creationLoop, hs, e]
  rfl

end

example : creationCb (fun s => some s) ["tiled=yes".toList, "bigtiff=none".toList, "tiled=no".toList] =
    .ok [("tiled".toList, some "no".toList), ("bigtiff".toList, none)] := by decide +kernel

example : Plain "tiled".toList := ⟨by decide, by decide, by decide⟩

example : OptionValue (fun s => some s) "null".toList none ∧ OptionValue (fun s => some s) "yes".toList (some "yes".toList) :=
  ⟨by rw [OptionValue, if_pos (by decide)], by rw [OptionValue, if_neg (by decide)]; exact ⟨_, rfl, rfl⟩⟩

end Verif.Cli
