import Verif.Ortho.FromFiles
import Verif.Factory.Rpc
import Verif.Rpc.Props
import Verif.Cli.Model

/-!
# C87: the ortho commands from start to end
-/

set_option autoImplicit false

namespace Verif.Command

open Verif.Ortho Verif.Dem Verif.Common Verif.Files Verif.OrthoProcess Verif.Factory Verif.Cli

variable {St Cm S : Type}

/-! ## Model -/

/-- A source image of a command: its path, the result of opening it, the CRS in its metadata, and `Ortho.__init__` (orthority/ortho.py:85-105) by
camera and CRS, which gives the object and the memory that holds its DEM.  The object's camera and CRS are set in `Batch.ortho`. -/
structure Source (Cm S : Type) where
  path : String
  opened : Res Unit
  crs : Option String
  make : Cm → String → Res (Obj ℝ S × Mem ℝ)

/-- What `_ortho` is called with (orthority/cli.py:294-304).  `get` is the method of the camera factory, whose state is an `St`; a camera is used
before the next call of `get`, so it is given here as it is on return.  `project` is `Camera.world_to_pixel` of one point as `Camera.remap` calls it;
`frame`, `distort` and `pinhole` are the kind of camera; `sample` is `cv2.remap` by interpolation, with the
rounding of coordinates to float32; `args` are the arguments of `Ortho.process`
apart from the file; `fault` says for which paths GDAL raises an exception when it opens the ortho image. -/
structure Batch (St Cm S : Type) where
  get : St → String → Res Cm × St
  project : Cm → Pix ℝ → Pix ℝ → Pix ℝ → Pix ℝ × Pix ℝ
  frame : Bool
  distort : Bool
  pinhole : Cm → Bool
  sample : String → S → ℝ → ℝ → Option (Pix ℝ)
  args : Args ℝ
  outDir : String
  stem : String → String
  fault : String → Option (Fault (OrthoFile ℝ))

/-- `ortho_ofile.path`, orthority/cli.py:365-367. -/
def Batch.out (b : Batch St Cm S) (s : Source Cm S) : String := orthoPath b.outDir (b.stem s.path)

/-- `Ortho(src_im, dem_im, camera, crs)`, orthority/cli.py:369: with the camera and CRS given (orthority/ortho.py:99-103). -/
def Batch.ortho (b : Batch St Cm S) (c : Cm) (crs : String) (o : Obj ℝ S) : Obj ℝ S :=
  { o with cam := fun i => ⟨b.project c, id, b.sample i⟩, frame := b.frame, distort := b.distort, pinhole := b.pinhole c, crs := crs }

/-- The arguments of `ortho.process`, orthority/cli.py:370. -/
def Batch.argsFor (b : Batch St Cm S) (s : Source Cm S) : Args ℝ := { b.args with file := .ofile (b.out s) "wb" }

/-- The loop of `_ortho`, orthority/cli.py:341-372, over the source images that are left, from a state of the factory, a value of `crs` and a file
system: the file systems and results that it may end with. -/
inductive Loop (b : Batch St Cm S) : St → Option String → FS (OrthoFile ℝ) → List (Source Cm S) → FS (OrthoFile ℝ) → Res Unit → Prop
  | nil {st : St} {crs : Option String} {fs : FS (OrthoFile ℝ)} : Loop b st crs fs [] fs (.ok ())
  | camera {st : St} {crs : Option String} {fs : FS (OrthoFile ℝ)} {s : Source Cm S} {ss : List (Source Cm S)} {e : PyErr} :
      (b.get st s.path).1 = .error e → Loop b st crs fs (s :: ss) fs (.error (if isOrthority e then .clickException else e))
  | source {st : St} {crs : Option String} {fs : FS (OrthoFile ℝ)} {s : Source Cm S} {ss : List (Source Cm S)} {c : Cm} {e : PyErr} :
      (b.get st s.path).1 = .ok c → s.opened = .error e →
      Loop b st crs fs (s :: ss) fs (.error (if e = .fileNotFoundError then .badParameter else e))
  | noCrs {st : St} {crs : Option String} {fs : FS (OrthoFile ℝ)} {s : Source Cm S} {ss : List (Source Cm S)} {c : Cm} :
      (b.get st s.path).1 = .ok c → s.opened = .ok () → (crs <|> s.crs) = none →
      Loop b st crs fs (s :: ss) fs (.error .missingParameter)
  | init {st : St} {crs : Option String} {fs : FS (OrthoFile ℝ)} {s : Source Cm S} {ss : List (Source Cm S)} {c : Cm} {v : String} {e : PyErr} :
      (b.get st s.path).1 = .ok c → s.opened = .ok () → (crs <|> s.crs) = some v → s.make c v = .error e →
      Loop b st crs fs (s :: ss) fs (.error (usage e))
  | process {st : St} {crs : Option String} {fs fs' : FS (OrthoFile ℝ)} {s : Source Cm S} {ss : List (Source Cm S)} {c : Cm} {v : String}
      {o : Obj ℝ S} {m : Mem ℝ} {e : PyErr} :
      (b.get st s.path).1 = .ok c → s.opened = .ok () → (crs <|> s.crs) = some v → s.make c v = .ok (o, m) →
      Process (b.ortho c v o) (b.argsFor s) m fs (b.fault (b.out s)) fs' (.error e) →
      Loop b st crs fs (s :: ss) fs' (.error (usage e))
  | next {st : St} {crs : Option String} {fs fs' fs'' : FS (OrthoFile ℝ)} {s : Source Cm S} {ss : List (Source Cm S)} {c : Cm} {v : String}
      {o : Obj ℝ S} {m : Mem ℝ} {r : Res Unit} :
      (b.get st s.path).1 = .ok c → s.opened = .ok () → (crs <|> s.crs) = some v → s.make c v = .ok (o, m) →
      Process (b.ortho c v o) (b.argsFor s) m fs (b.fault (b.out s)) fs' (.ok ()) → Loop b (b.get st s.path).2 (some v) fs' ss fs'' r →
      Loop b st crs fs (s :: ss) fs'' r

/-! ## Specification -/

/-- `f` is the ortho image of `o` for the arguments `a`: in the CRS of `o`, with its bands, colours and the overviews asked for; it covers the camera's footprint
on the DEM and no more; each pixel of each band is the source where the camera sees the pixel's centre at its elevation, else nodata. -/
def OrthoOf (o : Obj ℝ S) (a : Args ℝ) (m : Mem ℝ) (f : OrthoFile ℝ) : Prop :=
  ∃ res dtype nd d h w r0 c0, Choice o a res dtype nd ∧ DemAt o.dem o.crsEqual (o.call a.demInterp res) m d ∧ Covers o a res d f h w r0 c0 ∧
    ProfileOk f.profile a.driver dtype o.count h w ∧ f.crs = o.crs ∧ f.colors = o.colors ∧
    f.ovw = (if a.buildOvw = true then overviewLevels h w 8 256 else []) ∧
    ∀ b r c, 1 ≤ b → b ≤ o.count → r < h → c < w → f.im.data b r c = o.ground a res dtype nd d b (r0 + r) (c0 + c)

/-- `spec` gives the camera of each image, whatever the images before it: `I` holds of the states of the factory. -/
structure Faithful (b : Batch St Cm S) (I : St → Prop) (spec : String → Res Cm) : Prop where
  get : ∀ st f, I st → (b.get st f).1 = spec f
  keeps : ∀ st f, I st → I (b.get st f).2

/-- What the theorems assume of OpenCV, GDAL and the options: `cv2.remap` gives no sample for the pixel (-1, -1), cameras give NaN pixels for NaN elevations,
datasets have the size of their profile, creation options leave size, type and driver alone, and the command does not dilate nodata. -/
structure Sound (b : Batch St Cm S) (srcs : List (Source Cm S)) : Prop where
  border : ∀ i s, b.sample i s (-1) (-1) = none
  nan : ∀ c x y, b.project c x y none = (none, none)
  info : ∀ s ∈ srcs, ∀ c v o m, s.make c v = .ok (o, m) → InfoOk o
  opts : OptsOk b.args.opts
  mode : b.frame = false ∨ b.distort = true ∨ (∀ c, b.pinhole c = true) ∨ b.args.interp = "nearest"

/-! ## Theorems -/

theorem process_error_path {o : Obj ℝ S} {a : Args ℝ} {m : Mem ℝ} {fs fs' : FS (OrthoFile ℝ)} {fault : Option (Fault (OrthoFile ℝ))} {r : Res Unit}
    {path : String} (hn : Names a.file path) (h : Process o a m fs fault fs' r) (q : String) (hq : q ≠ path) : fs' q = fs q := by
  cases h with
  | before => rfl
  | refused => rfl
  | fault _ hc _ => rw [openCheck_names hn hc]; exact if_neg hq
  | interp _ hc _ _ => rw [openCheck_names hn hc]; exact if_neg hq
  | stopped _ _ hc _ _ _ _ => rw [openCheck_names hn hc]; exact if_neg hq
  | done _ hc _ _ _ => rw [openCheck_names hn hc]; exact if_neg hq

theorem ortho_of {b : Batch St Cm S} {srcs : List (Source Cm S)} (hs : Sound b srcs) {s : Source Cm S} (hm : s ∈ srcs) {c : Cm} {v : String}
    {o : Obj ℝ S} {m : Mem ℝ} (ho : s.make c v = .ok (o, m)) {fs fs' : FS (OrthoFile ℝ)} {fault : Option (Fault (OrthoFile ℝ))}
    (h : Process (b.ortho c v o) (b.argsFor s) m fs fault fs' (.ok ())) :
    ∃ f, fs' = fs.put (b.out s) (some f) ∧ OrthoOf (b.ortho c v o) (b.argsFor s) m f := by
  have hi := hs.info s hm c v o m ho
  have hnan : (b.ortho c v o).NanUnseen := by
    intro i dt k x y
    simp only [Obj.seen, Batch.ortho, hs.nan, Option.getD_none, id]
    exact hs.border _ _
  have hmode : (b.ortho c v o).frame = false ∨ (b.ortho c v o).distort = true ∨ (b.ortho c v o).pinhole = true ∨ (b.argsFor s).interp = "nearest" := by
    rcases hs.mode with h | h | h | h
    · exact Or.inl h
    · exact Or.inr (Or.inl h)
    · exact Or.inr (Or.inr (Or.inl (h c)))
    · exact Or.inr (Or.inr (Or.inr h))
  obtain ⟨res, dtype, nd, f, d, hh, w, r0, c0, h1, h2⟩ :=
    C82_pixels (b.ortho c v o) (b.argsFor s) m fs fs' fault ⟨hi.height, hi.width, hi.block⟩ hnan hs.opts (b.out s) (Or.inr ⟨_, rfl⟩) hmode h
  exact ⟨f, h1, res, dtype, nd, d, hh, w, r0, c0, h2⟩

/-- What a run leaves, from any state: the sources in `done` have their orthos, and if it raised, the next one (`s`) is the only other file that it may have
changed.  `Good` is what `process` makes of a source. -/
theorem loop_good {b : Batch St Cm S} {I : St → Prop} {spec : String → Res Cm} (hf : Faithful b I spec) {srcs : List (Source Cm S)}
    {Good : Source Cm S → Cm → String → Obj ℝ S → Mem ℝ → OrthoFile ℝ → Prop}
    (hgood : ∀ s ∈ srcs, ∀ c v o m fs fs' fault, spec s.path = .ok c → s.make c v = .ok (o, m) →
      Process (b.ortho c v o) (b.argsFor s) m fs fault fs' (.ok ()) → ∃ f, fs' = fs.put (b.out s) (some f) ∧ Good s c v o m f)
    (hd : (srcs.map b.out).Nodup) {st : St} (hI : I st) {crs : Option String} {fs fs' : FS (OrthoFile ℝ)} {r : Res Unit}
    (h : Loop b st crs fs srcs fs' r) :
    ∃ done rest, srcs = done ++ rest ∧ (r = .ok () ↔ rest = []) ∧
      (∀ q, q ∉ done.map b.out → q ∉ (rest.take 1).map b.out → fs' q = fs q) ∧
      ∀ s ∈ done, ∃ c v o m f, spec s.path = .ok c ∧ s.opened = .ok () ∧ (crs <|> (srcs.head?.bind Source.crs)) = some v ∧ s.make c v = .ok (o, m) ∧
        fs' (b.out s) = some f ∧ Good s c v o m f := by
  induction h with
  | nil => exact ⟨[], [], rfl, by simp, fun _ _ _ => rfl, fun _ h => absurd h List.not_mem_nil⟩
  | @camera st crs fs s ss e h1 =>
    exact ⟨[], s :: ss, rfl, by simp, fun _ _ _ => rfl, fun _ h => absurd h List.not_mem_nil⟩
  | @source st crs fs s ss c e h1 h2 =>
    exact ⟨[], s :: ss, rfl, by simp, fun _ _ _ => rfl, fun _ h => absurd h List.not_mem_nil⟩
  | @noCrs st crs fs s ss c h1 h2 h3 =>
    exact ⟨[], s :: ss, rfl, by simp, fun _ _ _ => rfl, fun _ h => absurd h List.not_mem_nil⟩
  | @init st crs fs s ss c v e h1 h2 h3 h4 =>
    exact ⟨[], s :: ss, rfl, by simp, fun _ _ _ => rfl, fun _ h => absurd h List.not_mem_nil⟩
  | @process st crs fs fs' s ss c v o m e h1 h2 h3 h4 h5 =>
    refine ⟨[], s :: ss, rfl, by simp, fun q _ hq => ?_, fun _ h => absurd h List.not_mem_nil⟩
    exact process_error_path (Or.inr ⟨_, rfl⟩) h5 q (by simpa using hq)
  | @next st crs fs fs' fs'' s ss c v o m r h1 h2 h3 h4 h5 h6 ih =>
    rw [List.map_cons, List.nodup_cons] at hd
    obtain ⟨done, rest, rfl, p2, p3, p4⟩ := ih (fun t ht => hgood t (List.mem_cons_of_mem _ ht)) hd.2 (hf.keeps _ _ hI)
    have hc : _ = Except.ok c := (hf.get _ s.path hI).symm.trans h1
    obtain ⟨f, q1, q2⟩ := hgood s List.mem_cons_self c v o m _ _ _ hc h4 h5
    refine ⟨s :: done, rest, rfl, p2, ?_, ?_⟩
    · intro q hq hq'
      simp only [List.map_cons, List.mem_cons, not_or] at hq
      rw [p3 q hq.2 hq', q1]
      exact if_neg hq.1
    · intro t ht
      rcases List.mem_cons.1 ht with rfl | ht
      · refine ⟨c, v, o, m, f, by rw [← hf.get _ _ hI]; exact h1, h2, by simpa using h3, h4, ?_, q2⟩
        have hn : b.out t ∉ (done ++ rest).map b.out := hd.1
        rw [List.map_append, List.mem_append, not_or] at hn
        rw [p3 _ hn.1 fun hx => hn.2 ?_, q1]
        · exact if_pos rfl
        · obtain ⟨u, hu, he⟩ := List.mem_map.1 hx
          exact List.mem_map.2 ⟨u, List.mem_of_mem_take hu, he⟩
      · obtain ⟨c', v', o', m', f', a1, a2, a3, a4, a5, a6⟩ := p4 t ht
        have hv : v' = v := by simpa using a3.symm
        subst hv
        exact ⟨c', v', o', m', f', a1, a2, by simpa using h3, a4, a5, a6⟩

theorem loop_cases {b : Batch St Cm S} {I : St → Prop} {spec : String → Res Cm} (hf : Faithful b I spec) {srcs : List (Source Cm S)} (hs : Sound b srcs)
    (hd : (srcs.map b.out).Nodup) {st : St} (hI : I st) {crs : Option String} {fs fs' : FS (OrthoFile ℝ)} {r : Res Unit}
    (h : Loop b st crs fs srcs fs' r) :
    ∃ done rest, srcs = done ++ rest ∧ (r = .ok () ↔ rest = []) ∧
      (∀ q, q ∉ done.map b.out → q ∉ (rest.take 1).map b.out → fs' q = fs q) ∧
      ∀ s ∈ done, ∃ c v o m f, spec s.path = .ok c ∧ s.opened = .ok () ∧ (crs <|> (srcs.head?.bind Source.crs)) = some v ∧ s.make c v = .ok (o, m) ∧
        fs' (b.out s) = some f ∧ OrthoOf (b.ortho c v o) (b.argsFor s) m f :=
  loop_good (Good := fun s c v o m f => OrthoOf (b.ortho c v o) (b.argsFor s) m f) hf
    (fun _ hm _ _ _ _ _ _ _ _ ho hp => ortho_of hs hm ho hp) hd hI h

/-- C87: when an ortho command ends without an exception, and the names of its source images differ, there is an ortho of each source image in the
output directory, made with the camera of that image, whatever the images before it; all are in the CRS of the command, or of the first image; and no
other file is changed. -/
theorem C87_batch (b : Batch St Cm S) (I : St → Prop) (spec : String → Res Cm) (hf : Faithful b I spec) (srcs : List (Source Cm S))
    (hs : Sound b srcs) (hd : (srcs.map b.out).Nodup) (st : St) (hI : I st) (crs : Option String) (fs fs' : FS (OrthoFile ℝ))
    (h : Loop b st crs fs srcs fs' (.ok ())) :
    (∀ q, (∀ s ∈ srcs, q ≠ b.outDir ++ "/" ++ (b.stem s.path ++ "_ORTHO.tif")) → fs' q = fs q) ∧
    ∀ s ∈ srcs, ∃ c v o m f, spec s.path = .ok c ∧ (crs = some v ∨ (crs = none ∧ srcs.head?.bind Source.crs = some v)) ∧
      s.make c v = .ok (o, m) ∧ fs' (b.outDir ++ "/" ++ (b.stem s.path ++ "_ORTHO.tif")) = some f ∧ f.crs = v ∧
      OrthoOf (b.ortho c v o) (b.argsFor s) m f := by
  obtain ⟨done, rest, rfl, h2, h3, h4⟩ := loop_cases hf hs hd hI h
  obtain rfl := h2.1 rfl
  rw [List.append_nil] at *
  refine ⟨fun q hq => h3 q ?_ (by simp), fun s hm => ?_⟩
  · intro hx
    obtain ⟨s, hm, rfl⟩ := List.mem_map.1 hx
    exact hq s hm rfl
  · obtain ⟨c, v, o, m, f, a1, -, a3, a4, a5, a6⟩ := h4 s hm
    refine ⟨c, v, o, m, f, a1, ?_, a4, a5, ?_, a6⟩
    · cases crs with
      | none => exact Or.inr ⟨rfl, by simpa using a3⟩
      | some u => exact Or.inl (by simpa using a3)
    · obtain ⟨_, _, _, _, _, _, _, _, -, -, -, -, k, -⟩ := a6
      exact k

/-- C87: when an ortho command ends with an exception, the images before the one that it was raised for have their orthos, and no other file is changed but, possibly,
the ortho of that image. -/
theorem C87_stopped (b : Batch St Cm S) (I : St → Prop) (spec : String → Res Cm) (hf : Faithful b I spec) (srcs : List (Source Cm S))
    (hs : Sound b srcs) (hd : (srcs.map b.out).Nodup) (st : St) (hI : I st) (crs : Option String) (fs fs' : FS (OrthoFile ℝ)) (e : PyErr)
    (h : Loop b st crs fs srcs fs' (.error e)) :
    ∃ done s rest, srcs = done ++ s :: rest ∧
      (∀ q, q ≠ b.out s → (∀ t ∈ done, q ≠ b.out t) → fs' q = fs q) ∧
      ∀ t ∈ done, ∃ c v o m f, spec t.path = .ok c ∧ (crs = some v ∨ (crs = none ∧ srcs.head?.bind Source.crs = some v)) ∧
        t.make c v = .ok (o, m) ∧ fs' (b.out t) = some f ∧ OrthoOf (b.ortho c v o) (b.argsFor t) m f := by
  obtain ⟨done, rest, rfl, h2, h3, h4⟩ := loop_cases hf hs hd hI h
  cases rest with
  | nil => exact absurd (h2.2 rfl) (by simp)
  | cons s rest =>
    refine ⟨done, s, rest, rfl, fun q hq hq' => h3 q ?_ (by simpa using hq), fun t ht => ?_⟩
    · intro hx
      obtain ⟨t, hm, rfl⟩ := List.mem_map.1 hx
      exact hq' t hm rfl
    · obtain ⟨c, v, o, m, f, a1, -, a3, a4, a5, a6⟩ := h4 t ht
      refine ⟨c, v, o, m, f, a1, ?_, a4, a5, a6⟩
      cases crs with
      | none => exact Or.inr ⟨rfl, by simpa using a3⟩
      | some u => exact Or.inl (by simpa using a3)

/-- C87: how an ortho command that stops at an image reports why: an image that has a camera but is not found as a bad value of the argument, an image without
CRS, when there is none from the command or from the first image, as a missing option, and errors of the library and orthos that exist already as usage errors.  (The hypotheses say that
opening an image and the camera factory do not raise `FileExistsError`, and that opening an image raises no error of orthority.) -/
theorem C87_reports (b : Batch St Cm S) (I : St → Prop) (spec : String → Res Cm) (hf : Faithful b I spec) (srcs : List (Source Cm S))
    (hcam : ∀ s ∈ srcs, spec s.path ≠ .error .fileExistsError)
    (hopen : ∀ s ∈ srcs, ∀ e ∈ [PyErr.fileExistsError, .orthorityError, .paramError, .crsMissingError, .crsError], s.opened ≠ .error e)
    (st : St) (hI : I st) (crs : Option String) (fs fs' : FS (OrthoFile ℝ)) (e : PyErr) (h : Loop b st crs fs srcs fs' (.error e)) :
    ∃ done s rest, srcs = done ++ s :: rest ∧ (∀ t ∈ done, (∃ c, spec t.path = .ok c) ∧ t.opened = .ok ()) ∧
      (∀ c, spec s.path = .ok c → s.opened = .error .fileNotFoundError → e = .badParameter) ∧
      (∀ c, spec s.path = .ok c → s.opened = .ok () → crs = none → srcs.head?.bind Source.crs = none → e = .missingParameter) ∧
      (∀ e' ∈ [PyErr.orthorityError, .paramError, .crsMissingError, .crsError], spec s.path = .error e' → e = .clickException) ∧
      e ∉ [PyErr.fileExistsError, .orthorityError, .paramError, .crsMissingError, .crsError] := by
  have husage : ∀ e', usage e' ∉ [PyErr.fileExistsError, .orthorityError, .paramError, .crsMissingError, .crsError] := by
    intro e'
    cases e' <;> simp [usage, isOrthority]
  have hlib : ∀ e' ∈ [PyErr.orthorityError, .paramError, .crsMissingError, .crsError], isOrthority e' = true := by
    intro e' he
    fin_cases he <;> rfl
  generalize hr : Except.error e = r at h
  induction h with
  | nil => cases hr
  | @camera st crs fs s ss e₀ h1 =>
    rw [hf.get _ _ hI] at h1
    injection hr with hr
    refine ⟨[], s, ss, rfl, fun _ h => absurd h List.not_mem_nil, fun c hc => ?_, fun c hc => ?_, fun e' he hc => ?_, ?_⟩
    · rw [h1] at hc; cases hc
    · rw [h1] at hc; cases hc
    · rw [h1] at hc
      injection hc with hc
      rw [hr, hc, if_pos (hlib e' he)]
    · rw [hr]
      have hne : e₀ ≠ .fileExistsError := by
        rintro rfl
        exact hcam s List.mem_cons_self h1
      cases e₀ <;> simp_all [isOrthority]
  | @source st crs fs s ss c e₀ h1 h2 =>
    rw [hf.get _ _ hI] at h1
    injection hr with hr
    refine ⟨[], s, ss, rfl, fun _ h => absurd h List.not_mem_nil, fun c hc ho => ?_, fun c hc ho => ?_, fun e' he hc => ?_, ?_⟩
    · rw [h2] at ho
      injection ho with ho
      rw [hr, if_pos ho]
    · rw [h2] at ho; cases ho
    · rw [h1] at hc; cases hc
    · rw [hr]
      by_cases h0 : e₀ = .fileNotFoundError
      · rw [if_pos h0]; decide
      · rw [if_neg h0]
        exact fun hm => hopen s List.mem_cons_self e₀ hm h2
  | @noCrs st crs fs s ss c h1 h2 h3 =>
    rw [hf.get _ _ hI] at h1
    injection hr with hr
    refine ⟨[], s, ss, rfl, fun _ h => absurd h List.not_mem_nil, fun c hc ho => ?_, fun c hc ho _ _ => hr, fun e' he hc => ?_, ?_⟩
    · rw [h2] at ho; cases ho
    · rw [h1] at hc; cases hc
    · rw [hr]; decide
  | @init st crs fs s ss c v e₀ h1 h2 h3 h4 =>
    rw [hf.get _ _ hI] at h1
    injection hr with hr
    refine ⟨[], s, ss, rfl, fun _ h => absurd h List.not_mem_nil, fun c hc ho => ?_, fun c hc ho h5 h6 => ?_, fun e' he hc => ?_, hr ▸ husage e₀⟩
    · rw [h2] at ho; cases ho
    · rw [h5] at h3
      simp only [List.head?_cons, Option.bind_some] at h6
      rw [h6] at h3; cases h3
    · rw [h1] at hc; cases hc
  | @process st crs fs fs' s ss c v o m e₀ h1 h2 h3 h4 h5 =>
    rw [hf.get _ _ hI] at h1
    injection hr with hr
    refine ⟨[], s, ss, rfl, fun _ h => absurd h List.not_mem_nil, fun c hc ho => ?_, fun c hc ho h5 h6 => ?_, fun e' he hc => ?_, hr ▸ husage e₀⟩
    · rw [h2] at ho; cases ho
    · rw [h5] at h3
      simp only [List.head?_cons, Option.bind_some] at h6
      rw [h6] at h3; cases h3
    · rw [h1] at hc; cases hc
  | @next st crs fs fs' fs'' s ss c v o m r h1 h2 h3 h4 h5 h6 ih =>
    rw [hf.get _ _ hI] at h1
    obtain ⟨done, t, rest, rfl, p1, p2, -, p4, p5⟩ := ih (fun u hu => hcam u (List.mem_cons_of_mem _ hu)) (fun u hu => hopen u (List.mem_cons_of_mem _ hu))
      (hf.keeps _ _ hI) hr
    refine ⟨s :: done, t, rest, rfl, fun u hu => ?_, p2, fun c hc ho h7 h8 => ?_, p4, p5⟩
    · rcases List.mem_cons.1 hu with rfl | hu
      · exact ⟨⟨c, h1⟩, h2⟩
      · exact p1 u hu
    · rw [h7] at h3
      simp only [List.head?_cons, Option.bind_some] at h8
      rw [h8] at h3; cases h3

/-- What a source image needs: the factory has its camera, it can be opened, there is a CRS, `Ortho` can be made of it, and `process` has what it needs
(`Ready`); its ortho does not exist, or may be overwritten; it and the blocks of its ortho are within OpenCV's limit. -/
def CanDo (b : Batch St Cm S) (spec : String → Res Cm) (crs : Option String) (fs : FS (OrthoFile ℝ)) (s : Source Cm S) : Prop :=
  ∃ c v o m res dtype, spec s.path = .ok c ∧ s.opened = .ok () ∧ crs = some v ∧ s.make c v = .ok (o, m) ∧
    (b.args.resolution = some res ∨ (b.args.resolution = none ∧ res = (o.gsd, o.gsd))) ∧
    ((b.args.dtype = some dtype ∧ dtype ≠ "") ∨ ((b.args.dtype = none ∨ b.args.dtype = some "") ∧ dtype = o.srcDtype)) ∧
    Ready (b.ortho c v o) (b.argsFor s) m res dtype ∧ (b.args.overwrite = true ∨ fs (b.out s) = none) ∧
    (o.srcH < 32767 ∧ o.srcW < 32767) ∧ ∀ p, SmallTiles (o.info p)

theorem loop_completes {b : Batch St Cm S} {I : St → Prop} {spec : String → Res Cm} (hf : Faithful b I spec) {srcs : List (Source Cm S)} (hs : Sound b srcs)
    (hd : (srcs.map b.out).Nodup) (hfault : ∀ q, b.fault q = none) (hin : b.args.interp ∈ ["nearest", "average", "bilinear", "cubic", "lanczos"])
    {st : St} (hI : I st) {crs : Option String} {fs : FS (OrthoFile ℝ)}
    (hdo : ∀ s ∈ srcs, CanDo b spec (crs <|> (srcs.head?.bind Source.crs)) fs s) :
    (∃ fs', Loop b st crs fs srcs fs' (.ok ())) ∧ ∀ fs' r, Loop b st crs fs srcs fs' r → r = .ok () := by
  induction srcs generalizing st crs fs with
  | nil =>
    refine ⟨⟨fs, .nil⟩, fun fs' r h => ?_⟩
    cases h
    rfl
  | cons s ss ih =>
    have hs' : Sound b ss := ⟨hs.border, hs.nan, fun t ht => hs.info t (List.mem_cons_of_mem _ ht), hs.opts, hs.mode⟩
    rw [List.map_cons, List.nodup_cons] at hd
    obtain ⟨c, v, o, m, res, dtype, a1, a2, a3, a4, a5, a6, a7, a8, a9⟩ := hdo s List.mem_cons_self
    have hg : (b.get st s.path).1 = .ok c := by rw [hf.get _ _ hI, a1]
    have hv : (crs <|> s.crs) = some v := by simpa using a3
    have hi := hs.info s List.mem_cons_self c v o m a4
    obtain ⟨⟨fs', k1⟩, k2⟩ := C82_completes (b.ortho c v o) (b.argsFor s) m fs ⟨hi.height, hi.width, hi.block⟩ hs.opts (b.out s) res dtype a5 a6 a7
      ⟨Or.inr rfl, a8⟩ hin a9.1 a9.2
    have hrest : ∀ fs₁, Process (b.ortho c v o) (b.argsFor s) m fs none fs₁ (.ok ()) →
        ∀ t ∈ ss, CanDo b spec (some v <|> (ss.head?.bind Source.crs)) fs₁ t := by
      intro fs₁ hp t ht
      obtain ⟨c', v', o', m', res', dtype', b1, b2, b3, b4, b5, b6, b7, b8, b9⟩ := hdo t (List.mem_cons_of_mem _ ht)
      have hvv : v' = v := Option.some.inj (b3.symm.trans a3)
      subst hvv
      refine ⟨c', v', o', m', res', dtype', b1, b2, by simp, b4, b5, b6, b7, b8.imp_right fun h => ?_, b9⟩
      rw [process_error_path (Or.inr ⟨_, rfl⟩) hp, h]
      intro he
      exact hd.1 (he ▸ List.mem_map_of_mem ht)
    constructor
    · obtain ⟨⟨fs'', l⟩, -⟩ := ih hs' hd.2 (hf.keeps st s.path hI) (hrest fs' k1)
      exact ⟨fs'', .next hg a2 hv a4 (by rw [hfault]; exact k1) l⟩
    · intro fs'' r h
      cases h with
      | camera h1 => rw [hg] at h1; cases h1
      | source h1 h2 => rw [a2] at h2; cases h2
      | noCrs h1 h2 h3 => rw [hv] at h3; cases h3
      | init h1 h2 h3 h4 =>
        rw [hg] at h1; cases h1
        rw [hv] at h3; cases h3
        rw [a4] at h4; cases h4
      | process h1 h2 h3 h4 h5 =>
        rw [hg] at h1; cases h1
        rw [hv] at h3; cases h3
        rw [a4] at h4; cases h4
        rw [hfault] at h5
        cases k2 _ _ h5
      | next h1 h2 h3 h4 h5 h6 =>
        rw [hg] at h1; cases h1
        rw [hv] at h3; cases h3
        rw [a4] at h4; cases h4
        rw [hfault] at h5
        exact (ih hs' hd.2 (hf.keeps st s.path hI) (hrest _ h5)).2 _ _ h6

/-- C87: an ortho command for images that have what they need, whose names differ, ends without an exception, when GDAL raises none. -/
theorem C87_completes (b : Batch St Cm S) (I : St → Prop) (spec : String → Res Cm) (hf : Faithful b I spec) (srcs : List (Source Cm S)) (hs : Sound b srcs)
    (hd : (srcs.map b.out).Nodup) (hfault : ∀ q, b.fault q = none) (hin : b.args.interp ∈ ["nearest", "average", "bilinear", "cubic", "lanczos"])
    (st : St) (hI : I st) (crs : Option String) (fs : FS (OrthoFile ℝ))
    (hdo : ∀ s ∈ srcs, CanDo b spec (crs <|> (srcs.head?.bind Source.crs)) fs s) :
    (∃ fs', Loop b st crs fs srcs fs' (.ok ())) ∧ ∀ fs' r, Loop b st crs fs srcs fs' r → r = .ok () :=
  loop_completes hf hs hd hfault hin hI hdo

/-! ## Frame cameras -/

open Verif.Create Verif.ParamIO
open Verif.Frame (V3 extrinsicR)

/-- Position and orientation. -/
abbrev Pose := V3 × (ℝ × ℝ × ℝ)

/-- The factory of the `frame`, `odm` and `exif` commands (orthority/cli.py:675-681, 758-763, 865-871) with `--full-remap`: `create_camera` without exterior
parameters, and `FrameCamera._get_extrinsic` for numbers, whose result is given as the position and angles (orthority/camera.py:697-715, C04). -/
noncomputable def frameEnv (name stem : String → String) (camKw : Dict String (Py ℝ)) (intParam : Dict String (Dict String (Py ℝ)))
    (extParam : Dict String (Option (ExtParam (ℝ × ℝ × ℝ)))) : FrameEnv (Dict String (Py ℝ)) CamObj (Option Pose) (ℝ × ℝ × ℝ) where
  name := name
  stem := stem
  create p := match createCamera p camKw with
    | .ok c => .ok ⟨c, none⟩
    | .error e => .error e
  extrinsic x o := .ok (some (![x.1, x.2.1, x.2.2], o))
  intParam := intParam
  extParam := extParam

/-- `FrameCameras.get`, with the camera as it is on return.  Cameras that are returned have a pose, see `frame_faithful`. -/
def frameGet (env : FrameEnv (Dict String (Py ℝ)) CamObj (Option Pose) (ℝ × ℝ × ℝ)) (st : FrameState CamObj (Option Pose)) (f : String) :
    Res (CamObj × Pose) × FrameState CamObj (Option Pose) :=
  ((env.getCam st f).bind fun c => match c with
    | some ⟨c, some p⟩ => .ok (c, p)
    | _ => .error .cameraInitError, (env.get st f).2)

/-- An ortho command with frame cameras and `--full-remap`, the default (orthority/cli.py:486-495). -/
noncomputable def frameBatch (env : FrameEnv (Dict String (Py ℝ)) CamObj (Option Pose) (ℝ × ℝ × ℝ)) (sample : String → S → ℝ → ℝ → Option (Pix ℝ))
    (args : Args ℝ) (outDir : String) (fault : String → Option (Fault (OrthoFile ℝ))) :
    Batch (FrameState CamObj (Option Pose)) (CamObj × Pose) S where
  get := frameGet env
  project c := frameW2p c.1 c.2.1 c.2.2
  frame := true
  distort := true
  pinhole c := decide (c.1.type = .pinhole)
  sample := sample
  args := args
  outDir := outDir
  stem := env.stem
  fault := fault

/-- The camera of an image, from the parameters only. -/
def frameSpec (env : FrameEnv (Dict String (Py ℝ)) CamObj (Option Pose) (ℝ × ℝ × ℝ)) (f : String) : Res (CamObj × Pose) :=
  (env.spec f).bind fun c => match c.pose with
    | some p => .ok (c.int, p)
    | none => .error .cameraInitError

theorem frame_faithful (env : FrameEnv (Dict String (Py ℝ)) CamObj (Option Pose) (ℝ × ℝ × ℝ)) (sample : String → S → ℝ → ℝ → Option (Pix ℝ))
    (args : Args ℝ) (outDir : String) (fault : String → Option (Fault (OrthoFile ℝ))) :
    Faithful (frameBatch env sample args outDir fault) (Inv env) (frameSpec env) := by
  refine ⟨fun st f hI => ?_, fun st f hI => hI.get f⟩
  simp only [frameBatch, frameGet, getCam_eq hI, frameSpec]
  cases env.spec f with
  | error e => rfl
  | ok c =>
    obtain ⟨c, p⟩ := c
    cases p <;> rfl

/-- The interior parameters for a camera ID: those of the ID, or the only ones when there is no ID. -/
def InteriorFor {I : Type} (intParam : Dict String I) (id : Option String) (i : I) : Prop :=
  (∃ k, id = some k ∧ k ≠ "" ∧ Dict.get? intParam k = some i) ∨ ((id = none ∨ id = some "") ∧ ∃ k, intParam = [(k, i)])

theorem frameSpec_ok {name stem : String → String} {camKw : Dict String (Py ℝ)} {intParam : Dict String (Dict String (Py ℝ))}
    {extParam : Dict String (Option (ExtParam (ℝ × ℝ × ℝ)))} {f : String} {c : CamObj} {p : Pose}
    (h : frameSpec (frameEnv name stem camKw intParam extParam) f = .ok (c, p)) :
    ∃ e par x o, FoundExt (frameEnv name stem camKw intParam extParam) f (some e) ∧ InteriorFor intParam e.camera par ∧ e.xyz = some x ∧ e.opk = some o ∧
      createCamera par camKw = .ok c ∧ p = (![x.1, x.2.1, x.2.2], o) := by
  set env := frameEnv name stem camKw intParam extParam with henv
  unfold frameSpec FrameEnv.spec at h
  cases h1 : env.ext f with
  | error e => rw [h1] at h; cases h
  | ok e =>
    rw [h1] at h
    cases h2 : env.int e.camera with
    | error e' => rw [Res.ok_bind, h2] at h; cases h
    | ok par =>
      rw [Res.ok_bind, h2, Res.ok_bind] at h
      have h3 : env.create par = match createCamera par camKw with
        | .ok c => .ok ⟨c, none⟩
        | .error e => .error e := rfl
      cases h4 : createCamera par camKw with
      | error e' => rw [h3, h4] at h; cases h
      | ok c' =>
        rw [h3, h4] at h
        simp only [Res.ok_bind] at h
        unfold FrameEnv.newPose at h
        cases hx : e.xyz with
        | none => rw [hx] at h; cases h
        | some x =>
          cases ho : e.opk with
          | none => rw [hx, ho] at h; cases h
          | some o =>
            rw [hx, ho] at h
            have hq : (c', ((![x.1, x.2.1, x.2.2], o) : Pose)) = (c, p) := Except.ok.inj h
            obtain ⟨rfl, rfl⟩ := Prod.mk.injEq _ _ _ _ ▸ hq
            refine ⟨e, par, x, o, ?_, ?_, hx, ho, h4, rfl⟩
            · unfold FrameEnv.ext byName at h1
              unfold FoundExt
              cases hn : Dict.get? env.extParam (env.name f) with
              | some v =>
                rw [hn] at h1
                cases v with
                | none => cases h1
                | some v => cases h1; exact Or.inl rfl
              | none =>
                rw [hn] at h1
                cases hst : Dict.get? env.extParam (env.stem f) with
                | none => rw [hst] at h1; cases h1
                | some v =>
                  rw [hst] at h1
                  cases v with
                  | none => cases h1
                  | some v => cases h1; exact Or.inr ⟨rfl, rfl⟩
            · have he : env.intParam = intParam := rfl
              unfold FrameEnv.int at h2
              cases hid : e.camera with
              | none =>
                simp only [hid, he] at h2
                split at h2
                · cases h2; exact Or.inr ⟨Or.inl rfl, _, rfl⟩
                · cases h2
              | some k =>
                rw [hid] at h2
                by_cases hk : k = ""
                · simp only [hk, ne_eq, not_true_eq_false, if_false, he] at h2
                  split at h2
                  · cases h2; exact Or.inr ⟨Or.inr (by rw [hk]), _, rfl⟩
                  · cases h2
                · simp only [ne_eq, hk, not_false_eq_true, if_true] at h2
                  cases hg : Dict.get? env.intParam k with
                  | none => rw [hg] at h2; cases h2
                  | some i => rw [hg] at h2; cases h2; exact Or.inl ⟨k, rfl, hk, hg⟩

/-- C87: `oty frame`, `odm` or `exif` with `--full-remap`, the default: when the command ends without an exception, there is an ortho of each source image in the
output directory, in the CRS of the command or of the first image, which covers the camera's footprint on the DEM and no more.  Each of its pixels in the
footprint, and not level with the camera, is the source image at the pixel where the documented camera with the interior parameters of the image's camera,
and the position and orientation of the image, sees the pixel's centre at its elevation, or nodata where that is outside the source image; pixels outside the
footprint are nodata.  No other file is changed. -/
theorem C87_frame (name stem : String → String) (camKw : Dict String (Py ℝ)) (hkw : ∀ n ∈ camKw.map Prod.fst, n = "distort" ∨ n = "alpha")
    (intParam : Dict String (Dict String (Py ℝ)))
    (hpar : ∀ k par, (k, par) ∈ intParam → ∃ cf, Params par cf ∧ cf.focalPx.1 ≠ 0 ∧ cf.focalPx.2 ≠ 0)
    (extParam : Dict String (Option (ExtParam (ℝ × ℝ × ℝ)))) (sample : String → S → ℝ → ℝ → Option (Pix ℝ)) (hsample : ∀ i s, sample i s (-1) (-1) = none)
    (args : Args ℝ) (hopts : OptsOk args.opts) (outDir : String) (fault : String → Option (Fault (OrthoFile ℝ)))
    (srcs : List (Source (CamObj × Pose) S)) (hinfo : ∀ s ∈ srcs, ∀ c v o m, s.make c v = .ok (o, m) → InfoOk o)
    (hd : (srcs.map fun s => outDir ++ "/" ++ (stem s.path ++ "_ORTHO.tif")).Nodup) (crs : Option String) (fs fs' : FS (OrthoFile ℝ))
    (h : Loop (frameBatch (frameEnv name stem camKw intParam extParam) sample args outDir fault) .init crs fs srcs fs' (.ok ())) :
    (∀ q, (∀ s ∈ srcs, q ≠ outDir ++ "/" ++ (stem s.path ++ "_ORTHO.tif")) → fs' q = fs q) ∧
    ∀ s ∈ srcs, ∃ e par cf x opk v c o m f, FoundExt (frameEnv name stem camKw intParam extParam) s.path (some e) ∧ InteriorFor intParam e.camera par ∧
      Params par cf ∧ e.xyz = some x ∧ e.opk = some opk ∧ (crs = some v ∨ (crs = none ∧ srcs.head?.bind Source.crs = some v)) ∧
      createCamera par camKw = .ok c ∧ s.make (c, (![x.1, x.2.1, x.2.2], opk)) v = .ok (o, m) ∧ fs' (outDir ++ "/" ++ (stem s.path ++ "_ORTHO.tif")) = some f ∧ f.crs = v ∧
      ∃ res dtype nd d h w r0 c0, Choice o args res dtype nd ∧ DemAt o.dem o.crsEqual (o.call args.demInterp res) m d ∧
        Covers o args res d f h w r0 c0 ∧ ProfileOk f.profile args.driver dtype o.count h w ∧
        ∀ b r c, 1 ≤ b → b ≤ o.count → r < h → c < w →
          (¬ o.InView args res d (r0 + r) (c0 + c) → f.im.data b r c = nd) ∧
          ∀ z, d.arr (r0 + r) (c0 + c) = some z → o.InView args res d (r0 + r) (c0 + c) →
            let xy := f.transform.apply ((c : ℝ) + 1 / 2) ((r : ℝ) + 1 / 2)
            let X : V3 := ![xy.1, xy.2, z]
            ((extrinsicR opk).transpose.mulVec (X - ![x.1, x.2.1, x.2.2])) 2 ≠ 0 →
              f.im.data b r c = (sample args.interp (o.read dtype args.interp b) ((pixOf (cf.pixel ![x.1, x.2.1, x.2.2] opk X).1).getD (-1))
                ((pixOf (cf.pixel ![x.1, x.2.1, x.2.2] opk X).2).getD (-1))).getD nd := by
  set env := frameEnv name stem camKw intParam extParam with henv
  have hs : Sound (frameBatch env sample args outDir fault) srcs := by
    refine ⟨hsample, fun c x y => ?_, hinfo, hopts, Or.inr (Or.inl rfl)⟩
    simp only [frameBatch]
    cases x <;> cases y <;> rfl
  obtain ⟨k1, k2⟩ := C87_batch _ _ _ (frame_faithful env sample args outDir fault) srcs hs hd .init (Inv.init env) crs fs fs' h
  refine ⟨k1, fun s hm => ?_⟩
  obtain ⟨⟨c, p⟩, v, o, m, f, a1, a2, a3, a4, a5, res, dtype, nd, d, hh, w, r0, c0, b1, b2, b3, b4, -, -, -, b8⟩ := k2 s hm
  obtain ⟨e, par, x, opk, c1, c2, c3, c4, c5, rfl⟩ := frameSpec_ok a1
  have hmem : ∃ k, (k, par) ∈ intParam := by
    rcases c2 with ⟨k, -, -, hk⟩ | ⟨-, k, hk⟩
    · exact ⟨k, Dict.mem_of_get? hk⟩
    · exact ⟨k, by rw [hk]; exact List.mem_singleton.2 rfl⟩
  obtain ⟨k, hk⟩ := hmem
  obtain ⟨cf, hp, hf⟩ := hpar k par hk
  obtain ⟨cam', h1, -, hpix⟩ := C81_camera par camKw cf hp hkw hf
  obtain rfl : cam' = c := by
    rw [c5] at h1
    exact (Except.ok.inj h1).symm
  refine ⟨e, par, cf, x, opk, v, cam', o, m, f, c1, c2, hp, c3, c4, a2, c5, a3, a4, a5, res, dtype, nd, d, hh, w, r0, c0,
    ⟨b1.resolution, b1.type, b1.nodata⟩, b2, ⟨b3.inside, b3.place, b3.all, b3.tight⟩, b4, fun b r c hb1 hb2 hr hc => ⟨fun hv => ?_, fun z hz hv => ?_⟩⟩
  · rw [b8 b r c hb1 hb2 hr hc, Obj.ground]
    exact if_neg hv
  · intro xy X hX
    rw [b8 b r c hb1 hb2 hr hc, Obj.ground]
    refine (if_pos hv).trans ?_
    rw [hz]
    have hxy : d.t.apply (((c0 + c : ℕ) : ℝ) + 1 / 2) (((r0 + r : ℕ) : ℝ) + 1 / 2) = xy := by
      simp only [xy, b3.place]
      congr 1 <;> push_cast <;> ring
    rw [hxy]
    simp only [Obj.seen, Batch.ortho, frameBatch, frameW2p, id]
    rw [hpix _ opk X hX]
    rfl

/-! ## An example: two images of one camera -/

/-- Exterior parameters of two images. -/
def demoExt : Dict String (Option (ExtParam (ℝ × ℝ × ℝ))) :=
  [("a.tif", some ⟨some "cam", some (104, 197, 50), some (0, 0, 0)⟩), ("b", some ⟨none, some (106, 196, 60), some (0, 0, 1)⟩)]

/-- File names of the example, without directories. -/
def demoStem (f : String) : String := if f = "a.tif" then "a" else if f = "b.tif" then "b" else f

noncomputable def demoCmd : FrameEnv (Dict String (Py ℝ)) CamObj (Option Pose) (ℝ × ℝ × ℝ) :=
  frameEnv id demoStem [("distort", .bool true), ("alpha", .int 1)] [("cam", demoParams)] demoExt

noncomputable def demoSample (_ : String) (src : List ℝ) (j i : ℝ) : Option (Pix ℝ) := if j = -1 ∧ i = -1 then none else some (src[0]?)

/-- The DEM of `frameObj`. -/
noncomputable def demoSource (path : String) (crs : Option String) : Source (CamObj × Pose) (List ℝ) :=
  ⟨path, .ok (), crs, fun c _ => .ok (frameObj c.1, ⟨fun _ _ _ => some 0, 1⟩)⟩

def cmdArgs : Args ℝ := ⟨.other, none, "cubic", "cubic", false, some true, none, none, true, [], "gtiff", false⟩

theorem demo_spec {f : String} (hf : f = "a.tif" ∨ f = "b.tif") : ∃ c, frameSpec demoCmd f = .ok c := by
  obtain ⟨cam, h1, -⟩ := C81_camera demoParams [("distort", .bool true), ("alpha", .int 1)] demoFile demo_params
    (fun n h => by simpa using h) demo_focal
  have hc : demoCmd.create demoParams = .ok ⟨cam, none⟩ := by simp only [demoCmd, frameEnv, h1]
  rcases hf with rfl | rfl
  · have h2 : demoCmd.spec "a.tif" = .ok ⟨cam, some (![104, 197, 50], (0, 0, 0))⟩ := by
      have e1 : demoCmd.ext "a.tif" = .ok ⟨some "cam", some (104, 197, 50), some (0, 0, 0)⟩ := by
        simp [FrameEnv.ext, byName, demoCmd, frameEnv, demoExt, Dict.get?]
      have e2 : demoCmd.int (some "cam") = .ok demoParams := by
        simp [FrameEnv.int, demoCmd, frameEnv, Dict.get?]
      unfold FrameEnv.spec
      rw [e1, Res.ok_bind, e2, Res.ok_bind, hc]
      rfl
    exact ⟨_, by unfold frameSpec; rw [h2]; rfl⟩
  · have h2 : demoCmd.spec "b.tif" = .ok ⟨cam, some (![106, 196, 60], (0, 0, 1))⟩ := by
      have e1 : demoCmd.ext "b.tif" = .ok ⟨none, some (106, 196, 60), some (0, 0, 1)⟩ := by
        simp [FrameEnv.ext, byName, demoCmd, frameEnv, demoExt, Dict.get?, demoStem]
      have e2 : demoCmd.int none = .ok demoParams := by
        simp [FrameEnv.int, demoCmd, frameEnv]
      unfold FrameEnv.spec
      rw [e1, Res.ok_bind, e2, Res.ok_bind, hc]
      rfl
    exact ⟨_, by unfold frameSpec; rw [h2]; rfl⟩

/-- A command for an image that is not found, and one without CRS. -/
example (fs : FS (OrthoFile ℝ)) :
    (∃ fs' e, Loop (frameBatch demoCmd demoSample cmdArgs "out" fun _ => none) .init none fs
      [{ demoSource "a.tif" none with opened := .error .fileNotFoundError }] fs' (.error e) ∧ e = .badParameter) ∧
    ∃ fs' e, Loop (frameBatch demoCmd demoSample cmdArgs "out" fun _ => none) .init none fs [demoSource "a.tif" none] fs' (.error e) ∧
      e = .missingParameter := by
  obtain ⟨c, hc⟩ := demo_spec (Or.inl rfl)
  have hf := frame_faithful demoCmd demoSample cmdArgs "out" fun _ => none
  have hg := (hf.get .init "a.tif" (Inv.init _)).trans hc
  constructor
  · refine ⟨_, _, .source hg rfl, ?_⟩
    obtain ⟨done, s, rest, h1, -, h2, -⟩ := C87_reports _ _ _ hf [{ demoSource "a.tif" none with opened := .error .fileNotFoundError }]
      (by simp [demoSource, hc]) (by simp) .init (Inv.init _) none fs _ _ (.source hg rfl)
    cases done with
    | nil =>
      injection h1 with h1 _
      subst h1
      exact h2 c hc rfl
    | cons a t => simp at h1
  · refine ⟨_, _, .noCrs hg rfl rfl, ?_⟩
    obtain ⟨done, s, rest, h1, -, -, h2, -⟩ := C87_reports _ _ _ hf [demoSource "a.tif" none]
      (by simp [demoSource, hc]) (by simp [demoSource]) .init (Inv.init _) none fs _ _ (.noCrs hg rfl rfl)
    cases done with
    | nil =>
      injection h1 with h1 _
      subst h1
      exact h2 c hc rfl rfl rfl
    | cons a t => simp at h1

/-- The hypotheses of `C87_completes`, `C87_batch` and `C87_frame` are met by a command for two images: it makes the orthos `a_ORTHO.tif` and `b_ORTHO.tif`, both in the
CRS of the first image. -/
example : ∃ fs', Loop (frameBatch demoCmd demoSample cmdArgs "out" fun _ => none) .init none (fun _ => none)
      [demoSource "a.tif" (some "EPSG:32735"), demoSource "b.tif" none] fs' (.ok ()) ∧
    (∃ f, fs' "out/a_ORTHO.tif" = some f ∧ f.crs = "EPSG:32735") ∧ ∃ f, fs' "out/b_ORTHO.tif" = some f ∧ f.crs = "EPSG:32735" := by
  set b := frameBatch demoCmd demoSample cmdArgs "out" fun _ => none with hb
  set srcs := [demoSource "a.tif" (some "EPSG:32735"), demoSource "b.tif" none] with hsrcs
  have hinfo : ∀ s ∈ srcs, ∀ c v o m, s.make c v = .ok (o, m) → InfoOk o := by
    intro s hm c v o m ho
    have : o = frameObj c.1 := by
      simp only [hsrcs, List.mem_cons, List.not_mem_nil, or_false] at hm
      rcases hm with rfl | rfl <;> · simp only [demoSource, Except.ok.injEq, Prod.mk.injEq] at ho; exact ho.1.symm
    subst this
    exact ⟨demo_infoOk.height, demo_infoOk.width, demo_infoOk.block⟩
  have hs : Sound b srcs := by
    refine ⟨fun i s => by simp [hb, frameBatch, demoSample], fun c x y => ?_, hinfo, ⟨by simp [hb, frameBatch, cmdArgs, Dict.Ok], by intro k _; rfl⟩, Or.inr (Or.inl rfl)⟩
    simp only [hb, frameBatch]
    cases x <;> cases y <;> rfl
  have hd : (srcs.map b.out).Nodup := by
    show ["out/a_ORTHO.tif", "out/b_ORTHO.tif"].Nodup
    decide +kernel
  have hf := frame_faithful demoCmd demoSample cmdArgs "out" fun _ => none
  obtain ⟨⟨fs', h⟩, -⟩ := C87_completes b _ _ hf srcs hs hd (fun _ => rfl) (by decide) .init (Inv.init _) none (fun _ => none) (by
    intro s hm
    have hs : ∃ p r, s = demoSource p r ∧ (p = "a.tif" ∨ p = "b.tif") := by
      simp only [hsrcs, List.mem_cons, List.not_mem_nil, or_false] at hm
      rcases hm with rfl | rfl
      · exact ⟨_, _, rfl, Or.inl rfl⟩
      · exact ⟨_, _, rfl, Or.inr rfl⟩
    obtain ⟨p, r, rfl, hp⟩ := hs
    obtain ⟨c, hc⟩ := demo_spec hp
    refine ⟨c, "EPSG:32735", frameObj c.1, ⟨fun _ _ _ => some 0, 1⟩, (2, 2), "uint8", hc, rfl, rfl, rfl, Or.inr ⟨rfl, rfl⟩, Or.inr ⟨Or.inl rfl, rfl⟩,
      ⟨rfl, (by decide : "cubic" ∈ ["nearest", "average", "bilinear", "cubic", "lanczos"]),
        Or.inr ⟨by norm_num [frameObj, Batch.ortho], by norm_num [frameObj, Batch.ortho]⟩, ?_,
        ⟨(by decide : "gtiff" ∈ ["gtiff", "cog"]), by decide, Or.inr (Or.inl rfl)⟩⟩,
      Or.inr rfl, by norm_num [frameObj], fun p => demo_small p⟩
    intro d hd
    obtain rfl : d = ⟨fun _ _ => some 0, 3, 4, ⟨2, 0, 100, 0, -2, 200⟩⟩ := by
      rcases hd with ⟨-, -, -, rfl⟩ | ⟨-, rfl⟩ <;> rfl
    exact ⟨0, by decide, 0, by decide, rfl, by simp [maskArgs]⟩)
  obtain ⟨-, k⟩ := C87_batch b _ _ hf srcs hs hd .init (Inv.init _) none (fun _ => none) fs' h
  refine ⟨fs', h, ?_, ?_⟩
  · obtain ⟨c, v, o, m, f, -, h2, -, h4, h5, -⟩ := k _ List.mem_cons_self
    rcases h2 with h2 | ⟨-, h2⟩
    · cases h2
    · cases h2; exact ⟨f, h4, h5⟩
  · obtain ⟨c, v, o, m, f, -, h2, -, h4, h5, -⟩ := k _ (List.mem_cons_of_mem _ List.mem_cons_self)
    rcases h2 with h2 | ⟨-, h2⟩
    · cases h2
    · cases h2; exact ⟨f, h4, h5⟩

end Verif.Command
