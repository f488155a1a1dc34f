import Verif.Cli.Props
import Verif.Files.Props

/-!
# Commands, their CRS and their errors (C58, C72)

The sub-commands of orthority/cli.py around the batch loop: what they do with exceptions, and which CRS they hand to the loop.
The camera factories, opening of files, `Ortho` and `PanSharpen` are parameters: they return, or raise some exception.
-/

set_option autoImplicit false
set_option linter.unusedSectionVars false

namespace Verif.Cli

section
variable {C Im : Type}

/-- What `_ortho` gets beside the cameras' CRS: `write` is the result of `cameras.write_param`, `dem` is none without `--dem`, and
otherwise the result of opening it and its number of bands. -/
structure Job (C Im : Type) where
  proc : Im → C → Proc
  outDir : String
  overwrite : Bool
  exportParams : Bool
  write : Res Unit
  dem : Option (Res ℕ)
  band : ℤ
  srcs : List (Src C Im)

/-- orthority/cli.py:294-372 `_ortho`.  The files written by `cameras.write_param` are modelled in `Verif.Files`, and are not in
`Fs`. -/
def orthoCmd (j : Job C Im) (crs : Option C) (fs : Fs C Im) : Fs C Im × Res Unit :=
  if j.exportParams then
    match j.write with
    | .ok () => (fs, .ok ())
    | .error e =>
      (fs, .error (if e = .fileExistsError then .clickException else if e = .crsMissingError then .missingParameter else e))
  else match j.dem with
    | none => (fs, .error .missingParameter)
    | some (.error e) => (fs, .error (if e = .fileNotFoundError then .badParameter else e))
    | some (.ok count) => ortho j.proc j.outDir j.overwrite crs j.band count fs j.srcs

/-- orthority/cli.py:674-693, the `frame` command.  `cams` gives the `crs` attribute of the factory for a `--crs` option. -/
def frameCmd (j : Job C Im) (option : Option C) (cams : Option C → Res (Option C)) (fs : Fs C Im) : Fs C Im × Res Unit :=
  match cams option with
  | .error e => (fs, .error (if e = .crsMissingError then .missingParameter else if e = .crsError then .badParameter
      else if e = .fileNotFoundError ∨ isOrthority e then .clickException else e))
  | .ok crs => orthoCmd j (option <|> crs) fs

/-- orthority/cli.py:757-773, the `exif` command. -/
def exifCmd (j : Job C Im) (option : Option C) (cams : Option C → Res (Option C)) (fs : Fs C Im) : Fs C Im × Res Unit :=
  match cams option with
  | .error e => (fs, .error (if e = .crsError then .badParameter
      else if e = .fileNotFoundError ∨ isOrthority e then .badParameter else e))
  | .ok crs => orthoCmd j (option <|> crs) fs

/-- orthority/cli.py:840-890, the `odm` command: `dsm` is the result of opening the DSM, with its number of bands and CRS.  The DSM
is opened a second time by `_ortho`, with the same result in the model. -/
def odmCmd (j : Job C Im) (option : Option C) (dsm : Res (ℕ × Option C)) (cams : Option C → Res (Option C)) (fs : Fs C Im) :
    Fs C Im × Res Unit :=
  if j.srcs.length = 0 then (fs, .error .badParameter)
  else match dsm with
    | .error e => (fs, .error (if e = .fileNotFoundError then .badParameter else e))
    | .ok (count, demCrs) =>
      let crs := option <|> demCrs
      match cams crs with
      | .error e => (fs, .error (if e = .fileNotFoundError then .badParameter else if isOrthority e then .clickException else e))
      | .ok _ => orthoCmd { j with dem := some (.ok count), band := 1 } crs fs

/-- orthority/cli.py:979-1021, the `rpc` command: `cams` is the result of the factory (from a file, or from the images; the same
exceptions are converted), and `refine` that of the refinement, when there is one. -/
def rpcCmd (j : Job C Im) (wgs84 : C) (option : Option C) (cams : Res Unit) (refine : Option (Res Unit)) (fs : Fs C Im) :
    Fs C Im × Res Unit :=
  let crs := match option with
    | none => wgs84
    | some c => c
  match cams with
  | .error e => (fs, .error (if e = .fileNotFoundError ∨ isOrthority e then .badParameter else e))
  | .ok () => match refine with
    | some (.error e) => (fs, .error (if e = .fileNotFoundError ∨ isOrthority e then .badParameter else e))
    | some (.ok ()) | none => orthoCmd j (some crs) fs

/-- orthority/cli.py:1174-1211, the `sharpen` command: the results of opening the images, with their numbers of bands, and of
`PanSharpen(...)` and `process`. -/
def sharpenCmd (pan ms : Res ℕ) (panIndex : ℤ) (msIndexes : List ℤ) (run : Res Unit) : Res Unit :=
  match pan with
  | .error e => .error (if e = .fileNotFoundError then .badParameter else e)
  | .ok panCount => match ms with
    | .error e => .error (if e = .fileNotFoundError then .badParameter else e)
    | .ok msCount => match checkBand panIndex panCount with
      | .error e => .error e
      | .ok () => match checkBands msIndexes msCount with
        | .error e => .error e
        | .ok () => match run with
          | .ok () => .ok ()
          | .error e => .error (usage e)

/-! ## Specification -/

/-- Exceptions orthority documents for invalid user data or arguments (`OrthorityError` and what derives from it). -/
def DataErr (e : PyErr) : Prop := e = .orthorityError ∨ e = .paramError ∨ e = .crsError ∨ e = .crsMissingError

/-- What click shows as a message with the usage, instead of a traceback. -/
def UsageErr (e : PyErr) : Prop := e = .clickException ∨ e = .badParameter ∨ e = .missingParameter

theorem isOrthority_iff (e : PyErr) : isOrthority e = true ↔ DataErr e := by
  cases e <;> simp [isOrthority, DataErr]

/-- Opening an image raises no orthority exception, orthority/common.py:266-336. -/
def OpensPlain {α : Type} (r : Res α) : Prop := ∀ e, r = .error e → ¬ DataErr e

/-! ## The batch loop (C58) -/

/-- C58: what an exception for one image becomes.  Errors in the data of a camera or an ortho, and an existing file, are usage
errors, and a missing image is one of the `SOURCE` argument; everything else is raised on. -/
theorem C58_errors (proc : Im → C → Proc) (outDir : String) (ow : Bool) (crs : Option C) (fs : Fs C Im) (s : Src C Im) (ss : List (Src C Im)) :
    (∀ e, s.cam = .error e → DataErr e → (orthoLoop proc outDir ow crs fs (s :: ss)) = (fs, .error .clickException)) ∧
    (∀ e, s.cam = .error e → ¬ DataErr e → (orthoLoop proc outDir ow crs fs (s :: ss)) = (fs, .error e)) ∧
    (s.cam = .ok () → s.opened = .error .fileNotFoundError →
      (orthoLoop proc outDir ow crs fs (s :: ss)) = (fs, .error .badParameter)) ∧
    (s.cam = .ok () → s.opened = .ok () → crs = none → s.crs = none →
      (orthoLoop proc outDir ow crs fs (s :: ss)) = (fs, .error .missingParameter)) ∧
    (∀ c, s.cam = .ok () → s.opened = .ok () → (crs <|> s.crs) = some c →
      (∀ e, proc s.im c = .raised e →
        (orthoLoop proc outDir ow crs fs (s :: ss)).1 = fs ∧
        (DataErr e ∨ e = .fileExistsError → (orthoLoop proc outDir ow crs fs (s :: ss)).2 = .error .clickException) ∧
        (¬ (DataErr e ∨ e = .fileExistsError) → (orthoLoop proc outDir ow crs fs (s :: ss)).2 = .error e)) ∧
      (ow = false → (fs (orthoPath outDir s.stem)).isSome → (∀ e, proc s.im c ≠ .raised e) →
        (orthoLoop proc outDir ow crs fs (s :: ss)) = (fs, .error .clickException)) ∧
      (∀ e, (ow = true ∨ fs (orthoPath outDir s.stem) = none) → proc s.im c = .aborted e →
        (DataErr e ∨ e = .fileExistsError → (orthoLoop proc outDir ow crs fs (s :: ss)).2 = .error .clickException) ∧
        (¬ (DataErr e ∨ e = .fileExistsError) → (orthoLoop proc outDir ow crs fs (s :: ss)).2 = .error e))) := by
  have hu : ∀ e, (DataErr e ∨ e = .fileExistsError → usage e = .clickException) ∧
      (¬ (DataErr e ∨ e = .fileExistsError) → usage e = e) := by
    intro e
    unfold usage
    refine ⟨fun h => if_pos (h.symm.imp_right (isOrthority_iff e).2), fun h => if_neg fun h' => h ?_⟩
    exact (h'.imp_right (isOrthority_iff e).1).symm
  refine ⟨?_, ?_, ?_, ?_, ?_⟩
  · intro e h hd
    simp only [orthoLoop, orthoOne, h, if_pos ((isOrthority_iff e).2 hd)]
  · intro e h hd
    simp only [orthoLoop, orthoOne, h, if_neg (fun hh => hd ((isOrthority_iff e).1 hh))]
  · intro h ho
    simp only [orthoLoop, orthoOne, h, ho, if_true]
  · rintro h ho rfl hs
    simp only [orthoLoop, orthoOne, h, ho, hs]
    rfl
  · intro c h ho hc
    refine ⟨?_, ?_, ?_⟩
    · intro e hp
      have he : orthoLoop proc outDir ow crs fs (s :: ss) = (fs, .error (usage e)) := by
        simp only [orthoLoop, orthoOne, h, ho, hc, hp]
      rw [he]
      exact ⟨rfl, fun hd => by rw [(hu e).1 hd], fun hd => by rw [(hu e).2 hd]⟩
    · intro how hex hne
      have hcond : (fs (orthoPath outDir s.stem)).isSome = true ∧ ow = false := ⟨hex, how⟩
      cases hp : proc s.im c with
      | raised e => exact absurd hp (hne e)
      | done =>
        simp only [orthoLoop, orthoOne, h, ho, hc, hp, if_pos hcond, usage, true_or, if_true]
      | aborted e =>
        simp only [orthoLoop, orthoOne, h, ho, hc, hp, if_pos hcond, usage, true_or, if_true]
    · intro e how hp
      have hcond : ¬ ((fs (orthoPath outDir s.stem)).isSome = true ∧ ow = false) := by
        rintro ⟨h1, h2⟩
        rcases how with h3 | h3
        · rw [h2] at h3; cases h3
        · rw [h3] at h1; cases h1
      have he : (orthoLoop proc outDir ow crs fs (s :: ss)).2 = .error (usage e) := by
        simp only [orthoLoop, orthoOne, h, ho, hc, hp, if_neg hcond]
      rw [he]
      exact ⟨fun hd => by rw [(hu e).1 hd], fun hd => by rw [(hu e).2 hd]⟩

/-- No orthority exception leaves one image of the loop. -/
theorem orthoOne_noData (proc : Im → C → Proc) (outDir : String) (ow : Bool) (crs : Option C) (fs : Fs C Im) (s : Src C Im)
    (hs : OpensPlain s.opened) (e : PyErr) (h : (orthoOne proc outDir ow crs fs s).2 = .error e) : ¬ DataErr e := by
  have hu : ∀ x, ¬ DataErr (usage x) := by
    intro x
    unfold usage
    by_cases hx : x = .fileExistsError ∨ isOrthority x = true
    · rw [if_pos hx]; simp [DataErr]
    · rw [if_neg hx]; exact fun hd => hx (Or.inr ((isOrthority_iff x).2 hd))
  cases hc : s.cam with
  | error x =>
    simp only [orthoOne, hc, Except.error.injEq] at h
    subst h
    by_cases hx : isOrthority x = true
    · rw [if_pos hx]; simp [DataErr]
    · rw [if_neg hx]; exact fun hd => hx ((isOrthority_iff x).2 hd)
  | ok u =>
    cases hop : s.opened with
    | error x =>
      simp only [orthoOne, hc, hop, Except.error.injEq] at h
      subst h
      by_cases hx : x = .fileNotFoundError
      · rw [if_pos hx]; simp [DataErr]
      · rw [if_neg hx]; exact hs x hop
    | ok u' =>
      cases hcrs : (crs <|> s.crs) with
      | none =>
        simp only [orthoOne, hc, hop, hcrs, Except.error.injEq] at h
        subst h
        simp [DataErr]
      | some c =>
        by_cases he : (fs (orthoPath outDir s.stem)).isSome = true ∧ ow = false
        · cases hp : proc s.im c <;> simp only [orthoOne, hc, hop, hcrs, hp, if_pos he, Except.error.injEq] at h <;>
            subst h <;> exact hu _
        · cases hp : proc s.im c <;> simp only [orthoOne, hc, hop, hcrs, hp, if_neg he, Except.error.injEq, reduceCtorEq] at h <;>
            subst h <;> exact hu _

theorem orthoLoop_noData (proc : Im → C → Proc) (outDir : String) (ow : Bool) (crs : Option C) (fs : Fs C Im)
    (srcs : List (Src C Im)) (hs : ∀ s ∈ srcs, OpensPlain s.opened) (e : PyErr)
    (h : (orthoLoop proc outDir ow crs fs srcs).2 = .error e) : ¬ DataErr e := by
  induction srcs generalizing crs fs with
  | nil => cases h
  | cons s ss ih =>
    have h1 := orthoOne_noData proc outDir ow crs fs s (hs s (by simp))
    rw [orthoLoop] at h
    cases ho : orthoOne proc outDir ow crs fs s with
    | mk fs' r =>
      rw [ho] at h h1
      cases r with
      | error x =>
        simp only [Except.error.injEq] at h
        subst h
        exact h1 x rfl
      | ok c => exact ih c fs' (fun t ht => hs t (by simp [ht])) h

theorem orthoCmd_noData (j : Job C Im) (crs : Option C) (fs : Fs C Im) (hs : ∀ s ∈ j.srcs, OpensPlain s.opened)
    (hd : ∀ r, j.dem = some r → OpensPlain r)
    (hw : j.exportParams = true → ∀ x, j.write = .error x → DataErr x → x = .crsMissingError) (e : PyErr)
    (h : (orthoCmd j crs fs).2 = .error e) : ¬ DataErr e := by
  unfold orthoCmd at h
  by_cases hx : j.exportParams = true
  · rw [if_pos hx] at h
    cases hwr : j.write with
    | ok u => rw [hwr] at h; cases h
    | error x =>
      rw [hwr] at h
      simp only [Except.error.injEq] at h
      subst h
      by_cases h1 : x = .fileExistsError
      · rw [if_pos h1]; simp [DataErr]
      · rw [if_neg h1]
        by_cases h2 : x = .crsMissingError
        · rw [if_pos h2]; simp [DataErr]
        · rw [if_neg h2]; exact fun hd => h2 (hw hx x hwr hd)
  · rw [if_neg hx] at h
    cases hdem : j.dem with
    | none =>
      rw [hdem] at h
      simp only [Except.error.injEq] at h
      subst h; simp [DataErr]
    | some r =>
      rw [hdem] at h
      cases r with
      | error x =>
        simp only [Except.error.injEq] at h
        subst h
        by_cases h1 : x = .fileNotFoundError
        · rw [if_pos h1]; simp [DataErr]
        · rw [if_neg h1]; exact hd _ hdem x rfl
      | ok count =>
        simp only [ortho] at h
        cases hb : checkBand j.band count with
        | error x =>
          rw [hb] at h
          simp only [Except.error.injEq] at h
          subst h
          unfold checkBand at hb
          by_cases hc : j.band ≤ 0 ∨ j.band > count
          · rw [if_pos hc] at hb
            rw [← Except.error.inj hb]; simp [DataErr]
          · rw [if_neg hc] at hb; cases hb
        | ok u =>
          rw [hb] at h
          exact orthoLoop_noData _ _ _ _ _ _ hs e h

/-! ## Commands (C72) -/

/-- C72, the part that holds: no orthority exception for invalid data (`OrthorityError`, `ParamError`, `CrsError`,
`CrsMissingError`) leaves a command that orthorectifies; it becomes a usage error.  With `--export-params` this is so when writing
the parameters raises none of these other than `CrsMissingError`.  Missing: the other exceptions of `write_param`
(`C72_export_fails`). -/
theorem C72_no_traceback_partial (j : Job C Im) (option : Option C) (cams : Option C → Res (Option C)) (wgs84 : C) (rpcCams : Res Unit)
    (refine : Option (Res Unit)) (dsm : Res (ℕ × Option C)) (fs : Fs C Im) (hs : ∀ s ∈ j.srcs, OpensPlain s.opened)
    (hd : ∀ r, j.dem = some r → OpensPlain r) (hdsm : OpensPlain dsm)
    (hw : j.exportParams = true → ∀ x, j.write = .error x → DataErr x → x = .crsMissingError) (e : PyErr)
    (h : (frameCmd j option cams fs).2 = .error e ∨ (exifCmd j option cams fs).2 = .error e ∨
      (odmCmd j option dsm cams fs).2 = .error e ∨ (rpcCmd j wgs84 option rpcCams refine fs).2 = .error e) : ¬ DataErr e := by
  have hdc : ∀ x, (¬ (x = .fileNotFoundError ∨ isOrthority x = true) → ¬ DataErr x) := fun x hx hd =>
    hx (Or.inr ((isOrthority_iff x).2 hd))
  have hord := fun crs => orthoCmd_noData j crs fs hs hd hw e
  rcases h with h | h | h | h
  · unfold frameCmd at h
    cases hc : cams option with
    | ok crs => rw [hc] at h; exact hord _ h
    | error x =>
      rw [hc] at h
      simp only [Except.error.injEq] at h
      subst h
      by_cases h1 : x = .crsMissingError
      · rw [if_pos h1]; simp [DataErr]
      rw [if_neg h1]
      by_cases h2 : x = .crsError
      · rw [if_pos h2]; simp [DataErr]
      rw [if_neg h2]
      by_cases h3 : x = .fileNotFoundError ∨ isOrthority x = true
      · rw [if_pos h3]; simp [DataErr]
      · rw [if_neg h3]; exact hdc x h3
  · unfold exifCmd at h
    cases hc : cams option with
    | ok crs => rw [hc] at h; exact hord _ h
    | error x =>
      rw [hc] at h
      simp only [Except.error.injEq] at h
      subst h
      by_cases h2 : x = .crsError
      · rw [if_pos h2]; simp [DataErr]
      rw [if_neg h2]
      by_cases h3 : x = .fileNotFoundError ∨ isOrthority x = true
      · rw [if_pos h3]; simp [DataErr]
      · rw [if_neg h3]; exact hdc x h3
  · unfold odmCmd at h
    by_cases h0 : j.srcs.length = 0
    · rw [if_pos h0] at h
      simp only [Except.error.injEq] at h
      subst h; simp [DataErr]
    rw [if_neg h0] at h
    cases dsm with
    | error x =>
      simp only [Except.error.injEq] at h
      subst h
      by_cases h1 : x = .fileNotFoundError
      · rw [if_pos h1]; simp [DataErr]
      · rw [if_neg h1]; exact hdsm x rfl
    | ok p =>
      obtain ⟨count, dc⟩ := p
      simp only at h
      cases hc : cams (option <|> dc) with
      | ok crs =>
        rw [hc] at h
        refine orthoCmd_noData _ (option <|> dc) fs ?_ ?_ ?_ e h
        · exact hs
        · intro r hr x hx
          rw [← Option.some.inj hr] at hx
          cases hx
        · exact hw
      | error x =>
        rw [hc] at h
        simp only [Except.error.injEq] at h
        subst h
        by_cases h1 : x = .fileNotFoundError
        · rw [if_pos h1]; simp [DataErr]
        rw [if_neg h1]
        by_cases h2 : isOrthority x = true
        · rw [if_pos h2]; simp [DataErr]
        · rw [if_neg h2]; exact fun hd => h2 ((isOrthority_iff x).2 hd)
  · have hbad : ∀ x, ¬ DataErr (if x = .fileNotFoundError ∨ isOrthority x = true then .badParameter else x) := by
      intro x
      by_cases h3 : x = .fileNotFoundError ∨ isOrthority x = true
      · rw [if_pos h3]; simp [DataErr]
      · rw [if_neg h3]; exact hdc x h3
    unfold rpcCmd at h
    cases rpcCams with
    | error x =>
      simp only [Except.error.injEq] at h
      subst h
      exact hbad x
    | ok u =>
      cases refine with
      | none => exact hord _ h
      | some r =>
        cases r with
        | ok u => exact hord _ h
        | error x =>
          simp only [Except.error.injEq] at h
          subst h
          exact hbad x

/-- C72: `oty sharpen` ends every orthority exception, an existing output file, missing images and invalid bands in a usage
error. -/
theorem C72_sharpen (pan ms : Res ℕ) (panIndex : ℤ) (msIndexes : List ℤ) (run : Res Unit) (hp : OpensPlain pan) (hm : OpensPlain ms)
    (e : PyErr) (h : sharpenCmd pan ms panIndex msIndexes run = .error e) :
    ¬ DataErr e ∧ (UsageErr e ∨ pan = .error e ∨ ms = .error e ∨ (run = .error e ∧ e ≠ .fileExistsError)) := by
  unfold sharpenCmd at h
  cases pan with
  | error x =>
    simp only [Except.error.injEq] at h
    subst h
    by_cases h1 : x = .fileNotFoundError
    · rw [if_pos h1]; simp [DataErr, UsageErr]
    · rw [if_neg h1]; exact ⟨hp x rfl, Or.inr (Or.inl rfl)⟩
  | ok pc =>
    cases ms with
    | error x =>
      simp only [Except.error.injEq] at h
      subst h
      by_cases h1 : x = .fileNotFoundError
      · rw [if_pos h1]; simp [DataErr, UsageErr]
      · rw [if_neg h1]; exact ⟨hm x rfl, Or.inr (Or.inr (Or.inl rfl))⟩
    | ok mc =>
      simp only at h
      unfold checkBand checkBands at h
      by_cases hb : panIndex ≤ 0 ∨ panIndex > pc
      · rw [if_pos hb] at h
        simp only [Except.error.injEq] at h
        subst h; simp [DataErr, UsageErr]
      rw [if_neg hb] at h
      simp only at h
      by_cases hb2 : 0 < (msIndexes.filter fun b : ℤ => decide (b ≤ 0 ∨ b > (mc : ℤ))).length
      · rw [if_pos hb2] at h
        simp only [Except.error.injEq] at h
        subst h; simp [DataErr, UsageErr]
      rw [if_neg hb2] at h
      simp only at h
      cases run with
      | ok u => cases h
      | error x =>
        simp only [Except.error.injEq] at h
        subst h
        unfold usage
        by_cases hx : x = .fileExistsError ∨ isOrthority x = true
        · rw [if_pos hx]; simp [DataErr, UsageErr]
        · rw [if_neg hx]
          push Not at hx
          exact ⟨fun hd => hx.2 ((isOrthority_iff x).2 hd), Or.inr (Or.inr (Or.inr ⟨rfl, hx.1⟩))⟩

/-- C72: which option is named when the factory of a command fails: a missing CRS asks `oty frame` for `--crs`, an invalid one is
an invalid `--crs`, and missing files and other invalid data are usage errors; nothing is written. -/
theorem C72_factory (j : Job C Im) (option : Option C) (cams : Option C → Res (Option C)) (wgs84 : C) (refine : Option (Res Unit))
    (fs : Fs C Im) :
    (cams option = .error .crsMissingError → frameCmd j option cams fs = (fs, .error .missingParameter)) ∧
    (cams option = .error .crsError → frameCmd j option cams fs = (fs, .error .badParameter) ∧
      exifCmd j option cams fs = (fs, .error .badParameter)) ∧
    (cams option = .error .fileNotFoundError ∨ cams option = .error .paramError →
      frameCmd j option cams fs = (fs, .error .clickException) ∧ exifCmd j option cams fs = (fs, .error .badParameter)) ∧
    (∀ e, e = .fileNotFoundError ∨ DataErr e → rpcCmd j wgs84 option (.error e) refine fs = (fs, .error .badParameter) ∧
      rpcCmd j wgs84 option (.ok ()) (some (.error e)) fs = (fs, .error .badParameter)) ∧
    (∀ n dc, j.srcs ≠ [] → (cams (option <|> dc) = .error .fileNotFoundError →
        odmCmd j option (.ok (n, dc)) cams fs = (fs, .error .badParameter)) ∧
      (∀ e, DataErr e → cams (option <|> dc) = .error e →
        odmCmd j option (.ok (n, dc)) cams fs = (fs, .error .clickException))) ∧
    odmCmd j option (.error .fileNotFoundError) cams fs = (fs, .error .badParameter) := by
  refine ⟨?_, ?_, ?_, ?_, ?_, ?_⟩
  · intro h; simp only [frameCmd, h, if_true]
  · intro h; simp [frameCmd, exifCmd, h]
  · rintro (h | h) <;> simp [frameCmd, exifCmd, h, isOrthority]
  · intro e he
    have hc : e = .fileNotFoundError ∨ isOrthority e = true := by rw [isOrthority_iff]; exact he
    simp only [rpcCmd, if_pos hc, and_self]
  · intro n dc hs
    have hl : ¬ j.srcs.length = 0 := fun h => hs (List.length_eq_zero_iff.1 h)
    refine ⟨fun h => ?_, fun e he h => ?_⟩
    · simp only [odmCmd, if_neg hl, h, if_true]
    · have h1 : e ≠ .fileNotFoundError := by rintro rfl; simp [DataErr] at he
      simp only [odmCmd, if_neg hl, h, if_neg h1, if_pos ((isOrthority_iff e).2 he)]
  · unfold odmCmd
    by_cases h : j.srcs.length = 0
    · rw [if_pos h]
    · rw [if_neg h]; rfl

/-- C72: a DEM is needed exactly when parameters are not exported, and a DEM that is missing, or has no such band, is a usage
error before any image is read. -/
theorem C72_dem (j : Job C Im) (crs : Option C) (fs : Fs C Im) :
    (j.exportParams = false → j.dem = none → orthoCmd j crs fs = (fs, .error .missingParameter)) ∧
    (j.exportParams = false → j.dem = some (.error .fileNotFoundError) → orthoCmd j crs fs = (fs, .error .badParameter)) ∧
    (∀ n, j.exportParams = false → j.dem = some (.ok n) → ¬ (1 ≤ j.band ∧ j.band ≤ n) →
      orthoCmd j crs fs = (fs, .error .badParameter)) ∧
    (j.exportParams = true → (orthoCmd j crs fs).1 = fs ∧ (j.write = .ok () → (orthoCmd j crs fs).2 = .ok ()) ∧
      (j.write = .error .fileExistsError → (orthoCmd j crs fs).2 = .error .clickException) ∧
      (j.write = .error .crsMissingError → (orthoCmd j crs fs).2 = .error .missingParameter)) := by
  refine ⟨?_, ?_, ?_, ?_⟩
  · intro h1 h2; simp [orthoCmd, h1, h2]
  · intro h1 h2; simp [orthoCmd, h1, h2]
  · intro n h1 h2 h3
    simp only [orthoCmd, h1, h2, Bool.false_eq_true, if_false]
    exact C58_dem_band _ _ _ _ _ _ _ _ h3
  · intro h
    unfold orthoCmd
    rw [if_pos h]
    refine ⟨?_, ?_, ?_, ?_⟩
    · cases j.write <;> rfl
    · intro hw; rw [hw]
    · intro hw; rw [hw]; rfl
    · intro hw; rw [hw]; rfl

/-- C72: when the world CRS is geographic, which the reader of GeoJSON exterior files does not refuse, `--export-params` writes the
interior file and then leaves with the traceback of a `CrsError`. -/
theorem C72_export_fails {B F : Type} (cd : Files.Codec F B) (lib : ParamIO.CrsLib C)
    (lla : C → List (ParamIO.Py F) → List (ParamIO.Py F)) (files : Files.FS B) (ints : Dict String (Dict String (ParamIO.Py F)))
    (exts : Dict String (ParamIO.Ext F)) (world : C) (hgeo : lib.isProjected world = false) (j : Job C Im) (hx : j.exportParams = true)
    (hw : j.write = (Files.frameWriteParam cd lib lla files j.outDir ints exts (some world) true none none).2) (option : Option C)
    (cams : Option C → Res (Option C)) (hc : cams option = .ok (some world)) (fs : Fs C Im) :
    frameCmd j option cams fs = (fs, .error .crsError) ∧ DataErr .crsError ∧
    (Files.frameWriteParam cd lib lla files j.outDir ints exts (some world) true none none).1 (Files.intFile j.outDir) ≠ none := by
  have hwr : Files.frameWriteParam cd lib lla files j.outDir ints exts (some world) true none none =
      (files.put (Files.intFile j.outDir) (some (cd.dump (ParamIO.writeInt ints))), .error .crsError) := by
    simp [Files.frameWriteParam, Files.writeIntParam, Files.writeWith, Files.writeExtParam, Files.openCheck,
      ParamIO.C21_geographic_refused lib lla world hgeo]
  rw [hwr] at hw ⊢
  refine ⟨?_, Or.inr (Or.inr (Or.inl rfl)), by simp [Files.FS.put]⟩
  simp [frameCmd, hc, orthoCmd, hx, hw]

/-! ## The CRS of the orthos (C58) -/

/-- C58: the CRS of the orthos of each command.  When a command succeeds without exporting, the file of every image whose stem is
not used again is its ortho; in the `--crs`, and without it in the CRS of the camera parameters (`frame`, `exif`), of the DSM (`odm`),
or WGS84 with ellipsoidal heights (`rpc`). -/
theorem C58_command_crs (j : Job C Im) (option : Option C) (cams : Option C → Res (Option C)) (wgs84 : C) (rpcCams : Res Unit)
    (refine : Option (Res Unit)) (dsm : Res (ℕ × Option C)) (fs fs' : Fs C Im) (hx : j.exportParams = false) (s : Src C Im)
    (pre post : List (Src C Im)) (hs : j.srcs = pre ++ s :: post) (hstem : ∀ t ∈ post, t.stem ≠ s.stem) :
    (∀ c, cams option = .ok (some c) → frameCmd j option cams fs = (fs', .ok ()) →
      fs' (orthoPath j.outDir s.stem) = some (.done s.im (option.getD c))) ∧
    (∀ c, cams option = .ok (some c) → exifCmd j option cams fs = (fs', .ok ()) →
      fs' (orthoPath j.outDir s.stem) = some (.done s.im (option.getD c))) ∧
    (∀ n c, dsm = .ok (n, some c) → odmCmd j option dsm cams fs = (fs', .ok ()) →
      fs' (orthoPath j.outDir s.stem) = some (.done s.im (option.getD c))) ∧
    (rpcCmd j wgs84 option rpcCams refine fs = (fs', .ok ()) →
      fs' (orthoPath j.outDir s.stem) = some (.done s.im (option.getD wgs84))) := by
  have hmain : ∀ (j' : Job C Im) (c : C), j'.exportParams = false → j'.srcs = j.srcs → j'.outDir = j.outDir →
      orthoCmd j' (some c) fs = (fs', .ok ()) → fs' (orthoPath j.outDir s.stem) = some (.done s.im c) := by
    intro j' c hx' hs' ho' h
    simp only [orthoCmd, hx', Bool.false_eq_true, if_false] at h
    cases hd : j'.dem with
    | none => rw [hd] at h; simp at h
    | some r =>
      rw [hd] at h
      cases r with
      | error e => simp at h
      | ok n =>
        simp only [ortho] at h
        cases hb : checkBand j'.band n with
        | error e => rw [hb] at h; simp at h
        | ok u =>
          rw [hb] at h
          obtain ⟨c', hc', hf⟩ := C58_batch_partial j'.proc j'.outDir j'.overwrite (some c) fs fs' j'.srcs (fun h => by cases h) h s pre
            post (hs'.trans hs) hstem
          rw [ho'] at hf
          rw [hf]
          rw [← Option.some.inj hc']
  have ho : ∀ c : C, (option <|> some c) = some (option.getD c) := by intro c; cases option <;> rfl
  refine ⟨?_, ?_, ?_, ?_⟩
  · intro c hc h
    simp only [frameCmd, hc, ho] at h
    exact hmain j _ hx rfl rfl h
  · intro c hc h
    simp only [exifCmd, hc, ho] at h
    exact hmain j _ hx rfl rfl h
  · intro n c hd h
    subst hd
    simp only [odmCmd, ho] at h
    by_cases hl : j.srcs.length = 0
    · rw [if_pos hl] at h; simp at h
    rw [if_neg hl] at h
    cases hc : cams (some (option.getD c)) with
    | error e => rw [hc] at h; simp at h
    | ok u =>
      rw [hc] at h
      exact hmain { j with dem := some (.ok n), band := 1 } _ hx rfl rfl h
  · intro h
    unfold rpcCmd at h
    cases rpcCams with
    | error e => simp at h
    | ok u =>
      cases refine with
      | none => cases option <;> exact hmain j _ hx rfl rfl h
      | some r => cases r with
        | error e => simp at h
        | ok u => cases option <;> exact hmain j _ hx rfl rfl h

end

/-- A job that meets the hypotheses. -/
example : ∃ fs', frameCmd (C := ℕ) (Im := ℕ) ⟨fun _ _ => .done, "o", false, false, .ok (), some (.ok 1), 1,
      [⟨1, "x", none, .ok (), .ok ()⟩]⟩ none (fun _ => .ok (some 7)) (fun _ => none) = (fs', .ok ()) ∧
    fs' (orthoPath "o" "x") = some (.done 1 7) := by
  refine ⟨fun q => if q = orthoPath "o" "x" then some (.done 1 7) else none, ?_, by simp⟩
  simp [frameCmd, orthoCmd, ortho, checkBand, orthoLoop, orthoOne]

example : (frameCmd (C := ℕ) (Im := ℕ) ⟨fun _ _ => .done, "o", false, false, .ok (), some (.ok 1), 1,
      [⟨1, "x", none, .error .paramError, .ok ()⟩]⟩ none (fun _ => .ok (some 7)) (fun _ => none)).2 = .error .clickException := by
  simp [frameCmd, orthoCmd, ortho, checkBand, orthoLoop, orthoOne, isOrthority]

end Verif.Cli
