import Verif.Cli.Inputs

/-!
# C102: commands can be run again, in parts, and side by side

What is on the disk after runs of commands that stop anywhere, and after a run to the end.  The names of the files are those of
C96.  In place of the contents of the files there is what an output is made from.
-/

set_option autoImplicit false

namespace Verif.Cli.Again

open Verif.Files.Names Verif.Cli.Inputs

variable {B : Type}

/-! ## Model -/

/-- One output of a command: its path, the files that it is made from, and what it is, given the contents of all files. -/
structure Item (B : Type) where
  out : Text
  reads : List Text
  make : Disk B → B

/-- What makes the contents of outputs, from the contents of the DEM and parameter files, and those of the sources: orthos
(orthority/ortho.py:484-631), parameter files (orthority/factory.py:236-248 and 378-394), and pan-sharpened images
(orthority/pan_sharp.py:517-670). -/
structure Makers (B : Type) where
  ortho : List (Option B) → Text → Option B → B
  param : List (Option B) → Text → B
  sharpen : Option B → Option B → B

/-- The outputs of a command, in the order that they are written in: orthority/cli.py:341-372, orthority/factory.py:236-248 and
378-394 (with the files of both kinds of factory), orthority/cli.py:1174-1211.  Simplified: the CRS of the orthos is that of the
options or parameter files, not that of the first source; all inputs of an output are read when it is written; all four
parameter files are written. -/
def plan (mk : Makers B) : Command → List (Item B)
  | .ortho srcs others outDir => srcs.map fun s =>
      ⟨orthoOf outDir s, s :: others, fun fs => mk.ortho (others.map fs) s (fs s)⟩
  | .params others outDir => exportNames.map fun n =>
      ⟨joinPath outDir n, others, fun fs => mk.param (others.map fs) n⟩
  | .sharpen pan ms out => [⟨out, [pan, ms], fun fs => mk.sharpen (fs pan) (fs ms)⟩]

/-- The execution of a command, as far as it goes (the last argument is whether it is to the end): an output is written when
its inputs are there, and it does not exist or `ow` is set (orthority/common.py:312).  A command that stops can leave an output
that is not finished, with any contents. -/
inductive Writes (ow : Bool) : List (Item B) → Disk B → Disk B → Bool → Prop
  | stop (l : List (Item B)) (fs : Disk B) : Writes ow l fs fs false
  | broken (i : Item B) (l : List (Item B)) (fs : Disk B) (b : B) : (ow = true ∨ fs i.out = none) →
      Writes ow (i :: l) fs (fs.put i.out b) false
  | nil (fs : Disk B) : Writes ow [] fs fs true
  | step (i : Item B) (l : List (Item B)) (fs fs' : Disk B) (r : Bool) : (∀ q ∈ i.reads, fs q ≠ none) →
      (ow = true ∨ fs i.out = none) → Writes ow l (fs.put i.out (i.make fs)) fs' r → Writes ow (i :: l) fs fs' r

/-- Any number of runs of a command that stop anywhere, with or without `--overwrite`. -/
inductive Runs (mk : Makers B) (c : Command) : Disk B → Disk B → Prop
  | none (fs : Disk B) : Runs mk c fs fs
  | more (fs fs' fs'' : Disk B) (ow r : Bool) : Writes ow (plan mk c) fs fs' r → Runs mk c fs' fs'' → Runs mk c fs fs''

/-- Two commands that run side by side to their ends, with `--overwrite`: the next output is one of either. -/
inductive Both : List (Item B) → List (Item B) → Disk B → Disk B → Prop
  | nil (fs : Disk B) : Both [] [] fs fs
  | left (i : Item B) (l l' : List (Item B)) (fs fs' : Disk B) : (∀ q ∈ i.reads, fs q ≠ none) →
      Both l l' (fs.put i.out (i.make fs)) fs' → Both (i :: l) l' fs fs'
  | right (i : Item B) (l l' : List (Item B)) (fs fs' : Disk B) : (∀ q ∈ i.reads, fs q ≠ none) →
      Both l l' (fs.put i.out (i.make fs)) fs' → Both l (i :: l') fs fs'

/-! ## Specification -/

/-- The paths that a command writes. -/
def Command.outputs : Command → List Text
  | .ortho srcs _ dir => srcs.map fun s => orthoOf dir s
  | .params _ dir => exportNames.map fun n => joinPath dir n
  | .sharpen _ _ out => [out]

/-- The outputs of one command are neither read nor written by the other. -/
def Separate (c c' : Command) : Prop := ∀ p ∈ Command.outputs c, p ∉ c'.inputs ∧ p ∉ Command.outputs c'

/-! ## Proofs -/

/-- What is on the disk after the outputs of a plan are made from the files on the disk `fs₀`. -/
def final (fs₀ : Disk B) : List (Item B) → Disk B → Disk B
  | [], fs => fs
  | i :: l, fs => final fs₀ l (fs.put i.out (i.make fs₀))

theorem final_other (fs₀ : Disk B) (l : List (Item B)) (fs : Disk B) {q : Text} (h : ∀ i ∈ l, q ≠ i.out) :
    final fs₀ l fs q = fs q := by
  induction l generalizing fs with
  | nil => rfl
  | cons i l ih =>
    rw [final, ih _ fun j hj => h j (List.mem_cons_of_mem _ hj), put_keeps (h i (List.mem_cons_self ..))]

theorem final_out (fs₀ fs₁ : Disk B) (l : List (Item B)) (hl : ∀ i ∈ l, i.make fs₀ = i.make fs₁) (fs fs' : Disk B)
    (h : ∀ q, (∀ i ∈ l, q ≠ i.out) → fs q = fs' q) : final fs₀ l fs = final fs₁ l fs' := by
  induction l generalizing fs fs' with
  | nil => exact funext fun q => h q (by simp)
  | cons i l ih =>
    rw [final, final, hl i (List.mem_cons_self ..)]
    refine ih (fun j hj => hl j (List.mem_cons_of_mem _ hj)) _ _ fun q hq => ?_
    by_cases hqi : q = i.out
    · subst hqi
      rw [Disk.put, Disk.put, Function.update_self, Function.update_self]
    · rw [put_keeps hqi, put_keeps hqi]
      refine h q fun j hj => ?_
      rcases List.mem_cons.mp hj with rfl | hj
      · exact hqi
      · exact hq j hj

/-- The items of a plan depend on the contents of inputs only. -/
theorem plan_make {mk : Makers B} {c : Command} {fs fs' : Disk B} (h : ∀ q ∈ c.inputs, fs q = fs' q) {i : Item B}
    (hi : i ∈ plan mk c) : i.make fs = i.make fs' := by
  cases c with
  | ortho srcs others outDir =>
    obtain ⟨s, hs, rfl⟩ := List.mem_map.mp hi
    have h1 : others.map fs = others.map fs' := List.map_congr_left fun q hq => h q (List.mem_append_right _ hq)
    simp only [h1, h s (List.mem_append_left _ hs)]
  | params others outDir =>
    obtain ⟨n, _, rfl⟩ := List.mem_map.mp hi
    have h1 : others.map fs = others.map fs' := List.map_congr_left fun q hq => h q hq
    simp only [h1]
  | sharpen pan ms out =>
    simp only [plan, List.mem_singleton] at hi
    subst hi
    simp only [h pan (by simp [Command.inputs]), h ms (by simp [Command.inputs])]

theorem plan_outputs (mk : Makers B) (c : Command) : (plan mk c).map Item.out = Command.outputs c := by
  cases c <;> simp [plan, Command.outputs, Function.comp_def]

theorem mem_outputs {mk : Makers B} {c : Command} {i : Item B} (h : i ∈ plan mk c) : i.out ∈ Command.outputs c := by
  rw [← plan_outputs mk c]
  exact List.mem_map_of_mem h

theorem plan_reads {mk : Makers B} {c : Command} {i : Item B} (h : i ∈ plan mk c) {q : Text} (hq : q ∈ i.reads) :
    q ∈ c.inputs := by
  cases c with
  | ortho srcs others outDir =>
    obtain ⟨s, hs, rfl⟩ := List.mem_map.mp h
    rcases List.mem_cons.mp hq with rfl | hq
    · exact List.mem_append_left _ hs
    · exact List.mem_append_right _ hq
  | params others outDir =>
    obtain ⟨n, _, rfl⟩ := List.mem_map.mp h
    exact hq
  | sharpen pan ms out =>
    simp only [plan, List.mem_singleton] at h
    subst h
    exact hq

/-- Inputs that are apart from the outputs are not outputs. -/
theorem apart_ne {c : Command} (hc : c.Apart) {q p : Text} (hq : q ∈ c.inputs) (hp : p ∈ Command.outputs c) : q ≠ p := by
  cases c with
  | ortho srcs others outDir =>
    obtain ⟨s, _, rfl⟩ := List.mem_map.mp hp
    exact hc q hq _
  | params others outDir =>
    obtain ⟨n, hn, rfl⟩ := List.mem_map.mp hp
    exact hc q hq n hn
  | sharpen pan ms out =>
    simp only [Command.outputs, List.mem_singleton] at hp
    subst hp
    simp only [Command.inputs, List.mem_cons, List.not_mem_nil, or_false] at hq
    rcases hq with rfl | rfl
    · exact Ne.symm hc.1
    · exact Ne.symm hc.2

theorem writes_keeps {ow : Bool} {l : List (Item B)} {fs fs' : Disk B} {r : Bool} (h : Writes ow l fs fs' r) {q : Text}
    (hq : ∀ i ∈ l, q ≠ i.out) : fs' q = fs q := by
  induction h with
  | stop => rfl
  | broken i l fs b _ => exact put_keeps (hq i (List.mem_cons_self ..))
  | nil => rfl
  | step i l fs fs' r _ _ _ ih =>
    rw [ih fun j hj => hq j (List.mem_cons_of_mem _ hj), put_keeps (hq i (List.mem_cons_self ..))]

theorem runs_keeps {mk : Makers B} {c : Command} {fs fs' : Disk B} (h : Runs mk c fs fs') {q : Text}
    (hq : q ∉ Command.outputs c) : fs' q = fs q := by
  induction h with
  | none => rfl
  | more fs fs' fs'' ow r h _ ih =>
    rw [ih]
    exact writes_keeps h fun i hi he => hq (he ▸ mem_outputs hi)

/-- A run to the end makes all outputs from the files that there were before it. -/
theorem writes_final {ow : Bool} {ins : List Text} {l : List (Item B)} {fs₀ fs fs' : Disk B} (h : Writes ow l fs fs' true)
    (hmake : ∀ i ∈ l, ∀ f g : Disk B, (∀ q ∈ ins, f q = g q) → i.make f = i.make g)
    (hne : ∀ i ∈ l, ∀ q ∈ ins, q ≠ i.out) (h₀ : ∀ q ∈ ins, fs q = fs₀ q) : fs' = final fs₀ l fs := by
  generalize hr : true = r at h
  induction h with
  | stop => cases hr
  | broken => cases hr
  | nil => rfl
  | step i l fs fs' r _ _ _ ih =>
    have hi := List.mem_cons_self (a := i) (l := l)
    rw [final, ← hmake i hi fs fs₀ h₀]
    exact ih (fun j hj => hmake j (List.mem_cons_of_mem _ hj)) (fun j hj => hne j (List.mem_cons_of_mem _ hj))
      (fun q hq => by rw [put_keeps (hne i hi q hq), h₀ q hq]) hr

theorem run_final {mk : Makers B} {ow : Bool} {c : Command} (hc : c.Apart) {fs fs' : Disk B}
    (h : Writes ow (plan mk c) fs fs' true) : fs' = final fs (plan mk c) fs :=
  writes_final (ins := c.inputs) h (fun _ hi _ _ hfg => plan_make hfg hi)
    (fun _ hi _ hq => apart_ne hc hq (mem_outputs hi)) fun _ _ => rfl

/-! ## Theorems -/

/-- C102 (for commands that do not write to their inputs): however often a command was run and stopped before, a run to its end
with `--overwrite` leaves the disk as one run of it would have. -/
theorem C102_resume_partial (mk : Makers B) (c : Command) (hc : c.Apart) (fs fs₁ fs₂ fs₃ : Disk B) (hr : Runs mk c fs fs₁)
    (h₂ : Writes true (plan mk c) fs₁ fs₂ true) (h₃ : Writes true (plan mk c) fs fs₃ true) : fs₂ = fs₃ := by
  rw [run_final hc h₂, run_final hc h₃]
  refine final_out _ _ _ (fun i hi => plan_make (fun q hq => ?_) hi) _ _ fun q hq => ?_
  · exact runs_keeps hr fun ho => apart_ne hc hq ho rfl
  · refine runs_keeps hr fun ho => ?_
    rw [← plan_outputs mk c] at ho
    obtain ⟨i, hi, he⟩ := List.mem_map.mp ho
    exact hq i hi he.symm

/-- C102 (for commands that do not write to their inputs): a command that has been run to its end changes nothing when it is run
to its end again. -/
theorem C102_again_partial (mk : Makers B) (c : Command) (hc : c.Apart) (ow : Bool) (fs fs₁ fs₂ : Disk B)
    (h₁ : Writes ow (plan mk c) fs fs₁ true) (h₂ : Writes true (plan mk c) fs₁ fs₂ true) : fs₂ = fs₁ := by
  rw [run_final hc h₂, run_final hc h₁]
  refine final_out _ _ _ (fun i hi => plan_make (fun q hq => ?_) hi) _ _ fun q hq => ?_
  · exact final_other _ _ _ fun j hj he => apart_ne hc hq (mem_outputs hj) he
  · exact final_other _ _ _ hq

/-- C102: such a run to the end is possible when the inputs exist. -/
theorem C102_possible_partial (mk : Makers B) (c : Command) (hc : c.Apart) (fs fs₁ : Disk B) (hin : ∀ q ∈ c.inputs, fs q ≠ none)
    (hr : Runs mk c fs fs₁) : ∃ fs₂, Writes true (plan mk c) fs₁ fs₂ true := by
  have h₁ : ∀ q ∈ c.inputs, fs₁ q ≠ none := fun q hq => by
    rw [runs_keeps hr fun ho => apart_ne hc hq ho rfl]
    exact hin q hq
  have key : ∀ (l : List (Item B)) (f : Disk B), (∀ i ∈ l, i ∈ plan mk c) → (∀ q ∈ c.inputs, f q ≠ none) →
      ∃ f', Writes true l f f' true := by
    intro l
    induction l with
    | nil => exact fun f _ _ => ⟨f, .nil f⟩
    | cons i l ih =>
      intro f hl hf
      have hi := hl i (List.mem_cons_self ..)
      obtain ⟨f', hf'⟩ := ih (f.put i.out (i.make f)) (fun j hj => hl j (List.mem_cons_of_mem _ hj)) fun q hq => by
        rw [put_keeps (apart_ne hc hq (mem_outputs hi))]
        exact hf q hq
      exact ⟨f', .step i l f f' true (fun q hq => hf q (plan_reads hi hq)) (Or.inl rfl) hf'⟩
  exact key _ fs₁ (fun _ h => h) h₁

/-- C102: without `--overwrite`, a command with an output that exists is not run to its end, and keeps that output as it is,
finished or not. -/
theorem C102_refused (mk : Makers B) (c : Command) (fs fs' : Disk B) (r : Bool) (h : Writes false (plan mk c) fs fs' r)
    (p : Text) (hp : p ∈ Command.outputs c) (hex : fs p ≠ none) : r = false ∧ fs' p = fs p := by
  rw [← plan_outputs mk c] at hp
  generalize plan mk c = l at h hp
  clear mk c
  induction h with
  | stop => exact ⟨rfl, rfl⟩
  | broken i l fs b hw => exact ⟨rfl, put_keeps (ne_of_write hw rfl hex)⟩
  | nil => simp at hp
  | step i l fs fs' r _ hw _ ih =>
    have hne := ne_of_write hw rfl hex
    have hp' : p ∈ l.map Item.out := by
      rw [List.map_cons, List.mem_cons] at hp
      exact hp.resolve_left hne
    have hk : fs.put i.out (i.make fs) p = fs p := put_keeps hne
    obtain ⟨h1, h2⟩ := ih (by rw [hk]; exact hex) hp'
    exact ⟨h1, h2.trans hk⟩

/-- C102: the sources of a command can be given in parts: a run with all of them is a run with the first followed by a run with
the others. -/
theorem C102_parts (mk : Makers B) (ow : Bool) (srcs srcs' others : List Text) (outDir : Text) (fs fs' : Disk B) :
    Writes ow (plan mk (.ortho (srcs ++ srcs') others outDir)) fs fs' true ↔
      ∃ fs₁, Writes ow (plan mk (.ortho srcs others outDir)) fs fs₁ true ∧
        Writes ow (plan mk (.ortho srcs' others outDir)) fs₁ fs' true := by
  have hl : plan mk (.ortho (srcs ++ srcs') others outDir) =
      plan mk (.ortho srcs others outDir) ++ plan mk (.ortho srcs' others outDir) := by simp [plan]
  rw [hl]
  generalize plan mk (.ortho srcs others outDir) = l
  generalize plan mk (.ortho srcs' others outDir) = l'
  induction l generalizing fs with
  | nil =>
    constructor
    · exact fun h => ⟨fs, .nil fs, h⟩
    · rintro ⟨fs₁, h1, h2⟩
      cases h1
      exact h2
  | cons i l ih =>
    constructor
    · intro h
      cases h with
      | step _ _ _ _ _ h1 h2 h3 =>
        obtain ⟨fs₁, h4, h5⟩ := (ih _).mp h3
        exact ⟨fs₁, .step i l fs fs₁ true h1 h2 h4, h5⟩
    · rintro ⟨fs₁, h1, h2⟩
      cases h1 with
      | step _ _ _ _ _ h3 h4 h5 => exact .step i _ fs fs' true h3 h4 ((ih _).mpr ⟨fs₁, h5, h2⟩)

/-- The order of the writes of two plans that do not touch each other does not matter. -/
theorem both_final {l l' : List (Item B)} {ins ins' : List Text} {fs₀ fs fs' : Disk B} (h : Both l l' fs fs')
    (hmake : ∀ i ∈ l, ∀ f g : Disk B, (∀ q ∈ ins, f q = g q) → i.make f = i.make g)
    (hmake' : ∀ i ∈ l', ∀ f g : Disk B, (∀ q ∈ ins', f q = g q) → i.make f = i.make g)
    (h1 : ∀ i ∈ l, ∀ q ∈ ins, q ≠ i.out) (h2 : ∀ i ∈ l, ∀ q ∈ ins', q ≠ i.out)
    (h3 : ∀ i ∈ l', ∀ q ∈ ins, q ≠ i.out) (h4 : ∀ i ∈ l', ∀ q ∈ ins', q ≠ i.out)
    (h5 : ∀ i ∈ l, ∀ j ∈ l', i.out ≠ j.out)
    (h₀ : ∀ q ∈ ins, fs q = fs₀ q) (h₀' : ∀ q ∈ ins', fs q = fs₀ q) : fs' = final fs₀ l' (final fs₀ l fs) := by
  induction h with
  | nil => rfl
  | left i l l' fs fs' _ _ ih =>
    have hi := List.mem_cons_self (a := i) (l := l)
    rw [final, ← hmake i hi fs fs₀ h₀]
    exact ih (fun j hj => hmake j (List.mem_cons_of_mem _ hj)) hmake' (fun j hj => h1 j (List.mem_cons_of_mem _ hj))
      (fun j hj => h2 j (List.mem_cons_of_mem _ hj)) h3 h4 (fun j hj => h5 j (List.mem_cons_of_mem _ hj))
      (fun q hq => by rw [put_keeps (h1 i hi q hq), h₀ q hq]) (fun q hq => by rw [put_keeps (h2 i hi q hq), h₀' q hq])
  | right i l l' fs fs' _ _ ih =>
    have hi := List.mem_cons_self (a := i) (l := l')
    rw [final, ← hmake' i hi fs fs₀ h₀',
      ih hmake (fun j hj => hmake' j (List.mem_cons_of_mem _ hj)) h1 h2 (fun j hj => h3 j (List.mem_cons_of_mem _ hj))
        (fun j hj => h4 j (List.mem_cons_of_mem _ hj)) (fun j hj k hk => h5 j hj k (List.mem_cons_of_mem _ hk))
        (fun q hq => by rw [put_keeps (h3 i hi q hq), h₀ q hq]) (fun q hq => by rw [put_keeps (h4 i hi q hq), h₀' q hq])]
    congr 1
    -- a write to a path that the first plan does not write
    have hcomm : ∀ (l : List (Item B)) (f : Disk B) (b : B), (∀ j ∈ l, j.out ≠ i.out) →
        final fs₀ l (f.put i.out b) = (final fs₀ l f).put i.out b := by
      intro l
      induction l with
      | nil => exact fun _ _ _ => rfl
      | cons j l ihl =>
        intro f b hl
        rw [final, final, ← ihl _ _ fun k hk => hl k (List.mem_cons_of_mem _ hk)]
        congr 1
        exact Function.update_comm (hl j (List.mem_cons_self ..)).symm _ _ _
    exact hcomm l fs _ fun j hj => h5 j hj i hi

/-- C102 (for commands that do not write to their inputs): two commands that do not read or write each other's outputs can run
side by side: whatever the order of their writes, the disk is in the end as if one had run after the other. -/
theorem C102_parallel_partial (mk : Makers B) (c c' : Command) (hc : c.Apart) (hc' : c'.Apart) (hs : Separate c c')
    (hs' : Separate c' c) (fs fs₁ fs₂ fs₃ : Disk B) (hb : Both (plan mk c) (plan mk c') fs fs₃)
    (h₁ : Writes true (plan mk c) fs fs₁ true) (h₂ : Writes true (plan mk c') fs₁ fs₂ true) : fs₃ = fs₂ := by
  have e₁ := run_final hc h₁
  have e₂ : fs₂ = final fs (plan mk c') fs₁ :=
    writes_final (ins := c'.inputs) h₂ (fun _ hi _ _ hfg => plan_make hfg hi)
      (fun _ hi _ hq => apart_ne hc' hq (mem_outputs hi)) fun q hq => by
        rw [e₁]
        exact final_other _ _ _ fun i hi he => (hs _ (mem_outputs hi)).1 (he ▸ hq)
  rw [e₂, e₁]
  exact both_final (ins := c.inputs) (ins' := c'.inputs) hb (fun _ hi _ _ hfg => plan_make hfg hi)
    (fun _ hi _ _ hfg => plan_make hfg hi) (fun _ hi _ hq => apart_ne hc hq (mem_outputs hi))
    (fun i hi q hq he => (hs _ (mem_outputs hi)).1 (he ▸ hq)) (fun i hi q hq he => (hs' _ (mem_outputs hi)).1 (he ▸ hq))
    (fun _ hi _ hq => apart_ne hc' hq (mem_outputs hi))
    (fun i hi j hj he => (hs _ (mem_outputs hi)).2 (he ▸ mem_outputs hj)) (fun _ _ => rfl) fun _ _ => rfl

/-- C102 is false of a command that writes to a source: run again, it makes another ortho from what it has written. -/
theorem C102_source_fails (mk : Makers B) (fs : Disk B) (a b : B) (ha : fs "d/x.tif".toList = some a)
    (hb : fs "d/x_ORTHO.tif".toList = some b) :
    let c : Command := .ortho ["d/x_ORTHO.tif".toList, "d/x.tif".toList] [] "d".toList
    let make := fun s => mk.ortho [] s
    ∃ fs₁ fs₂, Writes true (plan mk c) fs fs₁ true ∧ Writes true (plan mk c) fs₁ fs₂ true ∧
      fs₁ "d/x_ORTHO_ORTHO.tif".toList = some (make "d/x_ORTHO.tif".toList (some b)) ∧
      fs₂ "d/x_ORTHO_ORTHO.tif".toList =
        some (make "d/x_ORTHO.tif".toList (some (make "d/x.tif".toList (some a)))) := by
  have e1 : orthoOf "d".toList "d/x.tif".toList = "d/x_ORTHO.tif".toList := by decide +kernel
  have e2 : orthoOf "d".toList "d/x_ORTHO.tif".toList = "d/x_ORTHO_ORTHO.tif".toList := by decide +kernel
  have n1 : "d/x.tif".toList ≠ "d/x_ORTHO_ORTHO.tif".toList := by decide +kernel
  have n2 : "d/x.tif".toList ≠ "d/x_ORTHO.tif".toList := by decide +kernel
  have n3 : "d/x_ORTHO_ORTHO.tif".toList ≠ "d/x_ORTHO.tif".toList := by decide +kernel
  intro c make
  have run : ∀ (f : Disk B) (u v : B), f "d/x.tif".toList = some u → f "d/x_ORTHO.tif".toList = some v →
      ∃ f', Writes true (plan mk c) f f' true ∧ f' "d/x.tif".toList = some u ∧
        f' "d/x_ORTHO.tif".toList = some (make "d/x.tif".toList (some u)) ∧
        f' "d/x_ORTHO_ORTHO.tif".toList = some (make "d/x_ORTHO.tif".toList (some v)) := by
    intro f u v hu hv
    refine ⟨_, .step _ _ f _ true ?_ (Or.inl rfl) (.step _ _ _ _ true ?_ (Or.inl rfl) (.nil _)), ?_, ?_, ?_⟩
    · intro q hq
      simp only [List.mem_singleton] at hq
      subst hq
      rw [hv]
      simp
    · intro q hq
      simp only [List.mem_singleton] at hq
      subst hq
      simp only [e2]
      rw [put_keeps n1, hu]
      simp
    · simp only [e1, e2]
      rw [put_keeps n2, put_keeps n1, hu]
    · simp only [e1, e2]
      rw [put_keeps n1, hu]
      exact Function.update_self ..
    · simp only [e1, e2]
      rw [put_keeps n3, hv]
      exact Function.update_self ..
  obtain ⟨fs₁, h1, h2, h3, h4⟩ := run fs a b ha hb
  obtain ⟨fs₂, g1, -, -, g4⟩ := run fs₁ a _ h2 h3
  exact ⟨fs₁, fs₂, h1, g1, h4, g4⟩

/-- C102 is false of `oty sharpen` with its output in place of the pan image: run again, it sharpens with the sharpened image. -/
theorem C102_sharpen_fails (mk : Makers B) (fs : Disk B) (p m : B) (hp : fs "p.tif".toList = some p)
    (hm : fs "m.tif".toList = some m) :
    ∃ fs₁ fs₂, Writes true (plan mk (.sharpen "p.tif".toList "m.tif".toList "p.tif".toList)) fs fs₁ true ∧
      Writes true (plan mk (.sharpen "p.tif".toList "m.tif".toList "p.tif".toList)) fs₁ fs₂ true ∧
      fs₁ "p.tif".toList = some (mk.sharpen (some p) (some m)) ∧
      fs₂ "p.tif".toList = some (mk.sharpen (some (mk.sharpen (some p) (some m))) (some m)) := by
  have n : "m.tif".toList ≠ "p.tif".toList := by decide +kernel
  have run : ∀ (f : Disk B) (u : B), f "p.tif".toList = some u → f "m.tif".toList = some m →
      ∃ f', Writes true (plan mk (.sharpen "p.tif".toList "m.tif".toList "p.tif".toList)) f f' true ∧
        f' "p.tif".toList = some (mk.sharpen (some u) (some m)) ∧ f' "m.tif".toList = some m := by
    intro f u hu hv
    refine ⟨_, .step _ _ f _ true ?_ (Or.inl rfl) (.nil _), ?_, ?_⟩
    · intro q hq
      simp only [List.mem_cons, List.not_mem_nil, or_false] at hq
      rcases hq with rfl | rfl
      · rw [hu]; simp
      · rw [hv]; simp
    · simp only [hu, hv]
      exact Function.update_self ..
    · rw [put_keeps n, hv]
  obtain ⟨fs₁, h1, h2, h3⟩ := run fs p hp hm
  obtain ⟨fs₂, g1, g2, -⟩ := run fs₁ _ h2 h3
  exact ⟨fs₁, fs₂, h1, g1, h2, g2⟩

/-! ## Example -/

/-- A command that stops with an output that is not finished, and is then run to its end. -/
example (mk : Makers ℕ) (fs : Disk ℕ) (h1 : fs "a.tif".toList = some 1) (h2 : fs "b.tif".toList = some 2)
    (h3 : fs "dem.tif".toList = some 3) :
    let c : Command := .ortho ["a.tif".toList, "b.tif".toList] ["dem.tif".toList] "out".toList
    ∃ fs₁ fs₂ fs₃, Runs mk c fs fs₁ ∧ fs₁ "out/a_ORTHO.tif".toList = some 77 ∧ Writes true (plan mk c) fs₁ fs₂ true ∧
      Writes true (plan mk c) fs fs₃ true ∧ fs₂ = fs₃ := by
  intro c
  have hc : c.Apart := C96_names _ _ _ (by
    intro p hp
    simp only [List.cons_append, List.nil_append, List.mem_cons, List.not_mem_nil, or_false] at hp
    rcases hp with rfl | rfl | rfl
    · exact ⟨"a.tif".toList, ⟨by decide, by decide, by decide, Or.inl rfl⟩, by decide⟩
    · exact ⟨"b.tif".toList, ⟨by decide, by decide, by decide, Or.inl rfl⟩, by decide⟩
    · exact ⟨"dem.tif".toList, ⟨by decide, by decide, by decide, Or.inl rfl⟩, by decide⟩)
  have hin : ∀ q ∈ c.inputs, fs q ≠ none := by
    intro q hq
    simp only [c, Command.inputs, List.cons_append, List.nil_append, List.mem_cons, List.not_mem_nil, or_false] at hq
    rcases hq with rfl | rfl | rfl
    · rw [h1]; simp
    · rw [h2]; simp
    · rw [h3]; simp
  have e1 : orthoOf "out".toList "a.tif".toList = "out/a_ORTHO.tif".toList := by decide +kernel
  have hr : Runs mk c fs (fs.put (orthoOf "out".toList "a.tif".toList) 77) :=
    .more _ _ _ true false (.broken _ _ fs 77 (Or.inl rfl)) (.none _)
  obtain ⟨fs₂, h₂⟩ := C102_possible_partial mk c hc fs _ hin hr
  obtain ⟨fs₃, h₃⟩ := C102_possible_partial mk c hc fs _ hin (.none fs)
  refine ⟨_, fs₂, fs₃, hr, ?_, h₂, h₃, C102_resume_partial mk c hc fs _ fs₂ fs₃ hr h₂ h₃⟩
  rw [e1]
  exact Function.update_self ..

/-- Two commands that are separate. -/
example : Separate (.ortho ["a.tif".toList] ["dem.tif".toList] "out".toList)
    (.ortho ["b.tif".toList] ["dem.tif".toList] "out".toList) := by
  have e1 : orthoOf "out".toList "a.tif".toList = "out/a_ORTHO.tif".toList := by decide +kernel
  have e2 : orthoOf "out".toList "b.tif".toList = "out/b_ORTHO.tif".toList := by decide +kernel
  intro p hp
  simp only [Command.outputs, List.map_cons, List.map_nil, List.mem_singleton, e1] at hp
  subst hp
  simp only [Command.inputs, Command.outputs, List.map_cons, List.map_nil, e2]
  decide +kernel

end Verif.Cli.Again
