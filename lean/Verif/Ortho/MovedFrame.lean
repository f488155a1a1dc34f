import Verif.Ortho.Moved
import Verif.Ortho.FromFiles
import Verif.Frame.WorldBoundary
import Verif.Dem.Gsd

/-!
# C125: frame cameras in other world coordinates
-/

set_option autoImplicit false
set_option linter.unusedSectionVars false

namespace Verif.Moved

open Verif.Ortho Verif.Dem Verif.Files Verif.OrthoProcess Verif.Frame Matrix
open Res (ok_bind error_bind)

noncomputable section

/-- New coordinates of a world point. -/
def Move.v3 (μ : Move ℝ) (X : V3) : V3 := ![μ.s * X 0 + μ.dx, μ.s * X 1 + μ.dy, μ.z (X 2)]

/-- The same camera in other world coordinates: its position changes, its rotation and interior do not. -/
def Move.cam (μ : Move ℝ) (c : FrameCam) : FrameCam := { c with ext := c.ext.map fun e => (e.1, μ.v3 e.2) }

/-- The same surface in other world coordinates. -/
structure SurfMoved (μ : Move ℝ) (s s' : Surface) : Prop where
  shape : s'.shape = s.shape
  dtype : s'.dtypeOk = s.dtypeOk
  minZ : s'.minZ = μ.z s.minZ
  maxZ : s'.maxZ = μ.z s.maxZ
  res : s'.res = s.res.map μ.len
  interp : s'.interpIsEnum = s.interpIsEnum
  nan : ∀ x y, s.surf x y = .nan → s'.surf (μ.s * x + μ.dx) (μ.s * y + μ.dy) = .nan
  val : ∀ x y e, s.surf x y = .val e → s'.surf (μ.s * x + μ.dx) (μ.s * y + μ.dy) = .val (μ.z e)

/-- The same argument `z` of `world_boundary` in other world coordinates. -/
inductive ZMoved (μ : Move ℝ) : BoundaryZ → BoundaryZ → Prop
  | scalar (z : ℝ) : ZMoved μ (.scalar z) (.scalar (μ.z z))
  | surface {s s' : Surface} : SurfMoved μ s s' → ZMoved μ (.surface s) (.surface s')
  | other : ZMoved μ .other .other

theorem v3_sub (μ : Move ℝ) (X T : V3) : μ.v3 X - μ.v3 T = μ.s • (X - T) := by
  funext i
  fin_cases i <;> simp [Move.v3, Move.z] <;> ring

theorem unitDepth_move (μ : Move ℝ) (R : M3) (T X : V3) :
    FrameCam.unitDepth (FrameCam.camCoords R (μ.v3 T) (μ.v3 X)) = FrameCam.unitDepth (FrameCam.camCoords R T X) := by
  funext i
  simp only [FrameCam.unitDepth, FrameCam.camCoords, v3_sub, mulVec_smul, Pi.smul_apply, smul_eq_mul]
  exact mul_div_mul_left _ _ μ.pos.ne'

theorem project_move (μ : Move ℝ) (c : FrameCam) (R : M3) (T X : V3) : (μ.cam c).projectPt R (μ.v3 T) (μ.v3 X) = c.projectPt R T X := by
  show c.toPix _ = c.toPix _
  rw [unitDepth_move]

theorem point_move (μ : Move ℝ) (c : FrameCam) (R : M3) (T : V3) (p : ℝ × ℝ) (z : ℝ) :
    (μ.cam c).pointAtZ R (μ.v3 T) p (μ.z z) = μ.v3 (c.pointAtZ R T p z) := by
  have ht : (μ.cam c).toCam p = c.toCam p := rfl
  have h2 : μ.v3 T 2 = μ.z (T 2) := rfl
  have hz : (μ.z z - μ.z (T 2)) / (R *ᵥ c.toCam p) 2 = μ.s * ((z - T 2) / (R *ᵥ c.toCam p) 2) := by
    rw [← mul_div_assoc]; congr 1; unfold Move.z; ring
  funext i
  simp only [FrameCam.pointAtZ, ht, h2, hz]
  fin_cases i <;> simp [Move.v3, Move.z] <;> ring

theorem testInit_move (μ : Move ℝ) (c : FrameCam) : (μ.cam c).testInit = c.testInit.map fun e => (e.1, μ.v3 e.2) := by
  unfold FrameCam.testInit Move.cam
  cases c.ext <;> rfl

/-- C125: `world_to_pixel` of a frame camera does not depend on the origin and unit of world coordinates. -/
theorem C125_world_to_pixel (μ : Move ℝ) (c : FrameCam) (xyz : PtArr V3) :
    (μ.cam c).worldToPixel ⟨xyz.shape, xyz.cols.map μ.v3⟩ = c.worldToPixel xyz := by
  unfold FrameCam.worldToPixel
  rw [testInit_move]
  cases c.testInit with
  | error e => rfl
  | ok e =>
    show (validateCoords _ 3 >>= _) = (validateCoords xyz 3 >>= _)
    have hv : validateCoords (⟨xyz.shape, xyz.cols.map μ.v3⟩ : PtArr V3) 3 = validateCoords xyz 3 := rfl
    rw [hv]
    cases validateCoords xyz 3 with
    | error e => rfl
    | ok u =>
      show Except.ok _ = Except.ok _
      rw [List.map_map]
      simp only [Function.comp_def, project_move]

/-- C125: nor does `pixel_to_world_z`: it gives the same points, in the new coordinates. -/
theorem C125_pixel_to_world (μ : Move ℝ) (c : FrameCam) (ji : PtArr (ℝ × ℝ)) (z : ℝ) :
    (μ.cam c).pixelToWorldZ ji (.scalar (μ.z z)) = (c.pixelToWorldZ ji (.scalar z)).map (List.map μ.v3) := by
  unfold FrameCam.pixelToWorldZ
  rw [testInit_move]
  cases c.testInit with
  | error e => rfl
  | ok e =>
    show (validateCoords ji 2 >>= _) = Except.map _ (validateCoords ji 2 >>= _)
    cases validateCoords ji 2 with
    | error e => rfl
    | ok u =>
      simp only [ok_bind, validateZ, pairsZ]
      show Except.ok _ = Except.ok _
      simp only [List.map_map, Function.comp_def, point_move]

theorem horizon_move (μ : Move ℝ) (c : FrameCam) : (μ.cam c).horizonFov = c.horizonFov := by
  unfold FrameCam.horizonFov
  rw [testInit_move]
  cases c.testInit <;> rfl

theorem steps_move (μ : Move ℝ) (c : FrameCam) (R : M3) (T : V3) (p : ℝ × ℝ) (cap : ℕ) (res : ℝ × ℝ) (a b : ℝ) :
    raySteps cap (μ.len res) (triple ((μ.cam c).pointAtZ R (μ.v3 T) p (μ.z a))) (triple ((μ.cam c).pointAtZ R (μ.v3 T) p (μ.z b))) =
      raySteps cap res (triple (c.pointAtZ R T p a)) (triple (c.pointAtZ R T p b)) := by
  have hs := μ.pos.ne'
  have e : ∀ x y k r : ℝ, (μ.s * x + k - (μ.s * y + k)) / (μ.s * r) = (x - y) / r := fun x y k r => by
    rw [← mul_div_mul_left (x - y) r hs]; congr 1; ring
  rw [point_move, point_move]
  simp only [raySteps, triple, Move.v3, Move.len, cons_val_zero, cons_val_one, e]

theorem surfPoint_move (μ : Move ℝ) {s s' : Surface} (h : SurfMoved μ s s') (c : FrameCam) (R : M3) (T : V3) (p : ℝ × ℝ) (cap : ℕ) (hcap : 0 < cap) (res : ℝ × ℝ)
    (a b : ℝ) : surfPoint (fun z => triple ((μ.cam c).pointAtZ R (μ.v3 T) p z)) s'.surf cap (μ.len res) (μ.z a) (μ.z b) =
      triple (μ.v3 (let X := surfPoint (fun z => triple (c.pointAtZ R T p z)) s.surf cap res a b; ![X.1, X.2.1, X.2.2])) := by
  have hlin : ∀ n, linspace (μ.z b) (μ.z a) n = (linspace b a n).map μ.z := by
    intro n
    simp only [linspace, List.map_map]
    refine List.map_congr_left fun k _ => ?_
    simp only [Function.comp, Move.z]
    rw [show (μ.s * a + μ.dz - (μ.s * b + μ.dz)) / ((n : ℝ) - 1) = μ.s * ((a - b) / ((n : ℝ) - 1)) by rw [← mul_div_assoc]; congr 1; ring]
    ring
  have hhit : ∀ X : V3, hits s'.surf (triple (μ.v3 X)) = hits s.surf (triple X) := by
    intro X
    simp only [hits, triple, Move.v3, cons_val_zero, cons_val_one, cons_val]
    cases hq : s.surf (X 0) (X 1) with
    | nan => rw [h.nan _ _ hq]
    | val e =>
      rw [h.val _ _ _ hq]
      exact decide_eq_decide.2 (z_le μ _ _)
  simp only [surfPoint, steps_move, hlin, List.map_map]
  have hn : 0 < raySteps cap res (triple (c.pointAtZ R T p b)) (triple (c.pointAtZ R T p a)) := raySteps_pos hcap _ _ _
  generalize raySteps cap res (triple (c.pointAtZ R T p b)) (triple (c.pointAtZ R T p a)) = n at hn ⊢
  have hmap : (linspace b a n).map ((fun z => triple ((μ.cam c).pointAtZ R (μ.v3 T) p z)) ∘ μ.z) =
      ((linspace b a n).map fun z => c.pointAtZ R T p z).map fun X => triple (μ.v3 X) := by
    rw [List.map_map]
    refine List.map_congr_left fun z _ => ?_
    simp only [Function.comp, point_move]
  have hmap' : (linspace b a n).map (fun z => triple (c.pointAtZ R T p z)) = ((linspace b a n).map fun z => c.pointAtZ R T p z).map triple := by
    rw [List.map_map]; rfl
  have hne : (linspace b a n).map (fun z => c.pointAtZ R T p z) ≠ [] := by
    intro h0
    have := congrArg List.length h0
    simp [linspace] at this
    omega
  rw [hmap, hmap']
  generalize (linspace b a n).map (fun z => c.pointAtZ R T p z) = l at hne ⊢
  have htr : ∀ X : V3, ![(triple X).1, (triple X).2.1, (triple X).2.2] = X := fun X => by
    funext i; fin_cases i <;> rfl
  rw [List.find?_map, List.find?_map]
  simp only [Function.comp_def, hhit]
  cases hf : l.find? fun X => hits s.surf (triple X) with
  | some X => simp only [Option.map_some, htr]
  | none =>
    simp only [Option.map_none]
    rw [List.getLastD_eq_getLast?, List.getLastD_eq_getLast?, List.getLast?_map, List.getLast?_map, List.getLast?_eq_some_getLast hne]
    simp only [Option.map_some, Option.getD_some, htr]

theorem min_move (μ : Move ℝ) (a b : ℝ) : min (μ.z a) (μ.z b) = μ.z (min a b) := by
  rcases le_total a b with h | h
  · rw [min_eq_left h, min_eq_left ((z_le μ a b).2 h)]
  · rw [min_eq_right h, min_eq_right ((z_le μ b a).2 h)]

theorem worldSurf_move (μ : Move ℝ) {s s' : Surface} (h : SurfMoved μ s s') (c : FrameCam) (R : M3) (T : V3) (ji : List (ℝ × ℝ)) (res : ℝ × ℝ) (a b : ℝ) :
    worldSurf (μ.cam c) R (μ.v3 T) ji s' (μ.len res) (μ.z a) (μ.z b) = (worldSurf c R T ji s res a b).map (List.map μ.v3) := by
  have hv : ∀ X : V3, ![(triple X).1, (triple X).2.1, (triple X).2.2] = X := fun X => by
    funext i; fin_cases i <;> rfl
  unfold worldSurf
  simp only [h.shape, h.dtype, h.interp, steps_move]
  split_ifs <;> try rfl
  show Except.ok _ = Except.ok _
  rw [List.map_map]
  congr 1
  refine List.map_congr_left fun p _ => ?_
  simp only [Function.comp, surfPoint_move μ h c R T p _ (lt_of_lt_of_le (by norm_num) (maxRaySteps_ge _ _)) res a b]
  exact hv _

/-- C125: the boundary of the image in the world, at an elevation or on a surface, is the same in the new coordinates, or the same exception. -/
theorem C125_boundary (μ : Move ℝ) (c : FrameCam) {z z' : BoundaryZ} (h : ZMoved μ z z') (num : Option ℤ) (clip : Bool) :
    (μ.cam c).worldBoundary z' num clip = (c.worldBoundary z num clip).map (List.map μ.v3) := by
  unfold FrameCam.worldBoundary
  rw [testInit_move, horizon_move]
  cases c.testInit with
  | error e => rfl
  | ok e =>
    show (c.horizonFov >>= _) = Except.map _ (c.horizonFov >>= _)
    cases c.horizonFov with
    | error e => rfl
    | ok hf =>
      simp only [ok_bind]
      cases hf with
      | true => rfl
      | false =>
        show (c.boundary num >>= _) = Except.map _ (c.boundary num >>= _)
        cases c.boundary num with
        | error e => rfl
        | ok ji =>
          simp only [ok_bind]
          have hT : μ.v3 e.2 2 = μ.z (e.2 2) := rfl
          cases h with
          | other => rfl
          | scalar z =>
            simp only [hT, min_move]
            rw [← apply_ite μ.z]
            exact C125_pixel_to_world μ c _ _
          | @surface s s' hs =>
            simp only [hs.res, hT, hs.minZ, hs.maxZ, min_move]
            cases s.res with
            | none => rfl
            | some res =>
              simp only [Option.map_some, gt_iff_lt, z_lt]
              by_cases hlt : e.2 2 < s.minZ
              · rw [if_pos hlt, if_pos hlt]; rfl
              · rw [if_neg hlt, if_neg hlt, ← apply_ite μ.z]
                exact worldSurf_move μ hs c _ _ _ _ _ _

/-- C125: an ortho made with a frame camera is made with the camera, DEM and resolution in other coordinates too, with the same pixels. -/
theorem C125_frame {Src : Type} (μ : Move ℝ) (cam : Create.CamObj) (xyz : V3) (opk : ℝ × ℝ × ℝ) (samp : String → Src → ℝ → ℝ → Option (Pix ℝ)) (o o' : Obj ℝ Src)
    (ho : o.cam = fun i => ⟨frameW2p cam xyz opk, id, samp i⟩) (ho' : o'.cam = fun i => ⟨frameW2p cam (μ.v3 xyz) opk, id, samp i⟩) (m m' : Mem ℝ)
    (h : RestMoved μ o o' m m') (a : Args ℝ) (fs fs' : FS (OrthoFile ℝ)) (fault : Option (Fault (OrthoFile ℝ))) (path : String) (hn : Names a.file path)
    (hp : Process o a m fs fault fs' (.ok ())) :
    ∃ f, fs' = fs.put path (some f) ∧ Process o' (μ.args a) m' fs fault (fs.put path (some (μ.file o'.crs f))) (.ok ()) := by
  refine C125_process ⟨h, ?_, ?_⟩ a fs fs' fault path hn hp
  · intro i x y e
    rw [ho, ho']
    cases e with
    | none => rfl
    | some e =>
      have hX : (![μ.s * x + μ.dx, μ.s * y + μ.dy, μ.z e] : V3) = μ.v3 ![x, y, e] := by
        funext i; fin_cases i <;> rfl
      have hw : cam.worldToPixel (μ.v3 xyz) opk (μ.v3 ![x, y, e]) = cam.worldToPixel xyz opk ![x, y, e] := by
        unfold Create.CamObj.worldToPixel
        rw [unitDepth_move]
      simp only [frameW2p, Move.xy, Move.pz, Option.map_some, hX, hw]
  · intro i
    rw [ho, ho']
    exact ⟨rfl, rfl⟩

/-- C125: the resolution that is chosen for the ortho is the same length in the new unit. -/
theorem C125_resolution {n : ℕ} [NeZero n] (μ : Move ℝ) (ji xy : Fin n → ℝ × ℝ) : getGsd ji (fun i => μ.xy (xy i)) = μ.s * getGsd ji xy := by
  have h := C55_translation ji (fun i => (μ.s * (xy i).1, μ.s * (xy i).2)) μ.dx μ.dy
  rw [C55_units ji xy μ.s μ.pos.le] at h
  exact h

/-- From metres to feet, with another origin. -/
def feet : Move ℝ := ⟨1 / 0.3048, 1000, -2000, 0, by norm_num⟩

example : feet.cam Frame.demoCam ≠ Frame.demoCam ∧ ∀ ji z, (feet.cam Frame.demoCam).pixelToWorldZ ji (.scalar (feet.z z)) = (Frame.demoCam.pixelToWorldZ ji (.scalar z)).map (List.map feet.v3) := by
  refine ⟨fun h => ?_, fun ji z => C125_pixel_to_world feet Frame.demoCam ji z⟩
  have := congrArg FrameCam.ext h
  have h2 := congrArg (fun e : Option (M3 × V3) => e.map fun e => e.2 0) this
  simp [Move.cam, Frame.demoCam, Move.v3, feet] at h2

/-- An ortho made with a frame camera in metres is made in feet. -/
example {Src : Type} (cam : Create.CamObj) (xyz : V3) (opk : ℝ × ℝ × ℝ) (samp : String → Src → ℝ → ℝ → Option (Pix ℝ)) (o : Obj ℝ Src)
    (ho : o.cam = fun i => ⟨frameW2p cam xyz opk, id, samp i⟩) (hc : o.crsEqual = true) (m : Mem ℝ) (a : Args ℝ) (fs fs' : FS (OrthoFile ℝ)) (path : String)
    (hn : a.file = .path path) (hp : Process o a m fs none fs' (.ok ())) :
    ∃ f, fs' = fs.put path (some f) ∧ Process { feet.obj o "ft" with cam := fun i => ⟨frameW2p cam (feet.v3 xyz) opk, id, samp i⟩ } (feet.args a)
      ⟨fun s i j => feet.pz (m.cell s i j), m.next⟩ fs none (fs.put path (some (feet.file "ft" f))) (.ok ()) := by
  have h := (obj_moved feet o hc "ft" m).toRestMoved
  exact C125_frame feet cam xyz opk samp o { feet.obj o "ft" with cam := fun i => ⟨frameW2p cam (feet.v3 xyz) opk, id, samp i⟩ } ho rfl m _
    ⟨h.1, h.2, h.3, h.4, h.5, h.6, h.7, h.8, h.9⟩ a fs fs' none path (.inl hn) hp

/-- A level surface at 100 m, of 10 m pixels, and the same in feet. -/
def level (μ : Move ℝ) : Surface := ⟨(5, 5), true, μ.z 100, μ.z 100, some (μ.len (10, 10)), true, fun _ _ => .val (μ.z 100)⟩

example : ∃ s : Surface, SurfMoved feet s (level feet) ∧ s.res = some (10, 10) :=
  ⟨⟨(5, 5), true, 100, 100, some (10, 10), true, fun _ _ => .val 100⟩, ⟨rfl, rfl, rfl, rfl, rfl, rfl, fun _ _ h => (by cases h), fun _ _ e h => by cases h; rfl⟩, rfl⟩

end

end Verif.Moved
