import Verif.Factory.Frame
import Verif.Readers.Csv

/-!
# C101: the camera of an image has the pose in the row of the image

Composition of the CSV reader (C25) and the camera factory (C26): from the text of the rows to the camera that
`FrameCameras.get` returns.
-/

set_option autoImplicit false

namespace Verif.Factory.CsvPose

open Verif.Factory Verif.Readers

variable {K I J P : Type}

/-! ## Model -/

/-- The exterior parameters of a factory that is made with a CSV file: orthority/factory.py:178-192 (`FrameCameras._read_param` with
`reader.read_ext_param()`), of the dictionary that orthority/param_io.py:1143-1157 makes. -/
def extOf (d : Dict String (CsvExt K)) : Dict String (Option (ExtParam (K × K × K))) :=
  d.map fun o => (o.1, some ⟨o.2.camera, some o.2.xyz, some o.2.opk⟩)

/-! ## Specification -/

/-- The row is that of the image: the last part of its file name is the name of the image, or the name without extension, if
there is no row with the name. -/
def RowOf (env : FrameEnv I J P (K × K × K)) (rows : List (Dict String (Option String))) (f : String)
    (row : Dict String (Option String)) : Prop :=
  row ∈ rows ∧ ∃ s, Dict.get? row "filename" = some (some s) ∧
    (env.name s = env.name f ∨
      (∀ r ∈ rows, ∀ t, Dict.get? r "filename" = some (some t) → env.name t ≠ env.name f) ∧ env.name s = env.stem f)

/-- The interior parameters are those of the camera that the row names, or the only ones if it names none. -/
def IntOf (env : FrameEnv I J P (K × K × K)) (row : Dict String (Option String)) (i : I) : Prop :=
  (∃ id, Dict.get? row "camera" = some (some id) ∧ id ≠ "" ∧ Dict.get? env.intParam id = some i) ∨
    ((∀ id, Dict.get? row "camera" = some (some id) → id = "") ∧ ∃ k, env.intParam = [(k, i)])

/-! ## Proofs -/

theorem forall₂_left {α β : Type} {R : α → β → Prop} {l : List α} {m : List β} (h : List.Forall₂ R l m) {a : α} (ha : a ∈ l) :
    ∃ b ∈ m, R a b := by
  induction h with
  | nil => simp at ha
  | cons hr _ ih =>
    rcases List.mem_cons.mp ha with rfl | ha
    · exact ⟨_, List.mem_cons_self .., hr⟩
    · obtain ⟨b, hb, h⟩ := ih ha
      exact ⟨b, List.mem_cons_of_mem _ hb, h⟩

theorem forall₂_right {α β : Type} {R : α → β → Prop} {l : List α} {m : List β} (h : List.Forall₂ R l m) {b : β} (hb : b ∈ m) :
    ∃ a ∈ l, R a b := by
  induction h with
  | nil => simp at hb
  | cons hr _ ih =>
    rcases List.mem_cons.mp hb with rfl | hb
    · exact ⟨_, List.mem_cons_self .., hr⟩
    · obtain ⟨a, ha, h⟩ := ih hb
      exact ⟨a, List.mem_cons_of_mem _ ha, h⟩

theorem get_ext (d : Dict String (CsvExt K)) (k : String) :
    Dict.get? (extOf d) k = (Dict.get? d k).map fun e => some ⟨e.camera, some e.xyz, some e.opk⟩ :=
  Dict.get?_map (fun e : CsvExt K => some (⟨e.camera, some e.xyz, some e.opk⟩ : ExtParam (K × K × K))) d k

/-- The entry of a row in the dictionary of the file. -/
theorem entry {name : String → String} {parse : String → Option K} {cv : Conv K} {fmt : CsvFormat} {radians : Bool}
    {rows : List (Dict String (Option String))} {d : Dict String (CsvExt K)}
    (h : readCsv name parse cv fmt radians rows [] = .ok d)
    (hnames : (rows.map fun r => (Dict.get? r "filename").map (Option.map name)).Nodup)
    {row : Dict String (Option String)} (hrow : row ∈ rows) :
    ∃ s e, Dict.get? row "filename" = some (some s) ∧ Dict.get? d (name s) = some e ∧
      readRow parse cv fmt radians row = .ok (e.xyz, e.opk) ∧
      ∀ c, e.camera = some c ↔ Dict.get? row "camera" = some (some c) := by
  have hr := C25_read name parse cv fmt radians rows d h hnames
  have hd : Dict.Ok d := by
    obtain ⟨out, rfl, -⟩ := readCsv_ok h
    exact Dict.ok_ofItems out
  obtain ⟨⟨k, e⟩, ho, s, h1, h2, h3, h4⟩ := forall₂_left hr hrow
  simp only at h2
  subst h2
  exact ⟨s, e, h1, Dict.get?_of_mem hd ho, h3, h4⟩

/-- A name that is the name of no row is not in the dictionary of the file. -/
theorem no_entry {name : String → String} {parse : String → Option K} {cv : Conv K} {fmt : CsvFormat} {radians : Bool}
    {rows : List (Dict String (Option String))} {d : Dict String (CsvExt K)}
    (h : readCsv name parse cv fmt radians rows [] = .ok d)
    (hnames : (rows.map fun r => (Dict.get? r "filename").map (Option.map name)).Nodup) {k : String}
    (hk : ∀ r ∈ rows, ∀ t, Dict.get? r "filename" = some (some t) → name t ≠ k) : Dict.get? d k = none := by
  have hr := C25_read name parse cv fmt radians rows d h hnames
  rw [Dict.get?_none, List.mem_map]
  rintro ⟨⟨k', e⟩, ho, rfl⟩
  obtain ⟨r, hrow, s, h1, h2, -⟩ := forall₂_right hr ho
  exact hk r hrow s h1 h2.symm

/-- C101: when a CSV file is read and its rows have different file names, then after any earlier calls the camera of an image
that has a row has the position and orientation of the numbers in that row, in the units and the format of the file, and the
interior parameters of the camera that the row names. -/
theorem C101_pose (env : FrameEnv I J P (K × K × K)) (parse : String → Option K) (cv : Conv K) (fmt : CsvFormat)
    (radians : Bool) (rows : List (Dict String (Option String))) (d : Dict String (CsvExt K))
    (hfields : ∀ r ∈ rows, ∀ n ∈ fmt.needs, n ∈ r.map Prod.fst)
    (h : readCsv env.name parse cv fmt radians rows [] = .ok d) (henv : env.extParam = extOf d)
    (hnames : (rows.map fun r => (Dict.get? r "filename").map (Option.map env.name)).Nodup)
    (hist : List String) (f : String) (row : Dict String (Option String)) (hrow : RowOf env rows f row) (i : I)
    (hi : IntOf env row i) (c : Cam J P) (hc : env.create i = .ok c) :
    ∃ px py pz ox oy oz xyz opk,
      (if fmt.isXyz then Num parse row "x" px ∧ Num parse row "y" py ∧ Num parse row "z" pz ∧ xyz = (px, py, pz)
        else Num parse row "latitude" px ∧ Num parse row "longitude" py ∧ Num parse row "altitude" pz ∧
          xyz = cv.toXyz (px, py, pz)) ∧
      (if fmt.isOpk then Num parse row "omega" ox ∧ Num parse row "phi" oy ∧ Num parse row "kappa" oz ∧
          opk = (if radians then (ox, oy, oz) else cv.radians (ox, oy, oz))
        else Num parse row "roll" ox ∧ Num parse row "pitch" oy ∧ Num parse row "yaw" oz ∧
          opk = cv.rpyToOpk (if radians then (ox, oy, oz) else cv.radians (ox, oy, oz))
            (if fmt.isXyz then cv.toLla (px, py, pz) else (px, py, pz))) ∧
      ∀ p, env.extrinsic xyz opk = .ok p → env.getCam (env.run .init hist) f = .ok (some ⟨c.int, p⟩) := by
  obtain ⟨hmem, s, hs, hname⟩ := hrow
  obtain ⟨s', e, h1, h2, h3, h4⟩ := entry h hnames hmem
  rw [hs] at h1
  simp only [Option.some.injEq] at h1
  subst h1
  rcases C25_rows parse cv fmt radians row (hfields row hmem) with
    ⟨px, py, pz, ox, oy, oz, xyz, opk, g1, g2, g3⟩ | g | g
  · rw [h3] at g3
    simp only [Except.ok.injEq, Prod.mk.injEq] at g3
    refine ⟨px, py, pz, ox, oy, oz, xyz, opk, g1, g2, fun p hp => ?_⟩
    refine C26_get_ok env hist f ⟨e.camera, some e.xyz, some e.opk⟩ i xyz opk c p ?_ ?_ (congrArg some g3.1)
      (congrArg some g3.2) hc hp
    · rw [henv, get_ext, get_ext]
      rcases hname with hn | ⟨hno, hn⟩
      · left; rw [← hn, h2]; rfl
      · right
        refine ⟨?_, ?_⟩
        · rw [no_entry h hnames hno]; rfl
        · rw [← hn, h2]; rfl
    · rcases hi with ⟨id, hid, hne, hp⟩ | ⟨hno, hk⟩
      · exact Or.inl ⟨id, (h4 id).mpr hid, hne, hp⟩
      · refine Or.inr ⟨?_, hk⟩
        show e.camera = none ∨ e.camera = some ""
        cases hcam : e.camera with
        | none => exact Or.inl rfl
        | some id => rw [hno id ((h4 id).mp hcam)]; exact Or.inr rfl
  · rw [h3] at g; exact absurd g (by simp)
  · rw [h3] at g; exact absurd g (by simp)

/-- C101: an image that has no row, by name or by stem, is refused, and does not get the pose of another image. -/
theorem C101_missing (env : FrameEnv I J P (K × K × K)) (parse : String → Option K) (cv : Conv K) (fmt : CsvFormat)
    (radians : Bool) (rows : List (Dict String (Option String))) (d : Dict String (CsvExt K))
    (h : readCsv env.name parse cv fmt radians rows [] = .ok d) (henv : env.extParam = extOf d)
    (hnames : (rows.map fun r => (Dict.get? r "filename").map (Option.map env.name)).Nodup)
    (hist : List String) (f : String)
    (hno : ∀ r ∈ rows, ∀ t, Dict.get? r "filename" = some (some t) → env.name t ≠ env.name f ∧ env.name t ≠ env.stem f) :
    env.getCam (env.run .init hist) f = .error .paramError := by
  refine C26_get_missing env hist f (Or.inl fun e he => ?_)
  have h1 := no_entry h hnames fun r hr t ht => (hno r hr t ht).1
  have h2 := no_entry h hnames fun r hr t ht => (hno r hr t ht).2
  unfold FoundExt at he
  rw [henv, get_ext, get_ext, h1, h2] at he
  simp at he

/-! ## Example -/

/-- Numbers of one digit, no conversion of angles and positions. -/
def exParse (s : String) : Option ℕ := [("1", 1), ("2", 2), ("3", 3), ("5", 5), ("7", 7), ("9", 9)].lookup s

def exConv : Conv ℕ := ⟨id, id, fun p => (10 * p.1, 10 * p.2.1, 10 * p.2.2), fun p _ => p⟩

def exFields : List String := ["filename", "x", "y", "z", "omega", "phi", "kappa", "camera"]

def exRows : List (Dict String (Option String)) :=
  [mkRow exFields ["d/a.tif", "1", "2", "3", "5", "7", "9", "wide"], mkRow exFields ["b", "9", "7", "5", "3", "2", "1", "tele"]]

def exDict : Dict String (CsvExt ℕ) :=
  [("a.tif", ⟨(1, 2, 3), (50, 70, 90), some "wide"⟩), ("b", ⟨(9, 7, 5), (30, 20, 10), some "tele"⟩)]

def exEnv : FrameEnv ℕ ℕ (List ℕ) (ℕ × ℕ × ℕ) where
  name := fun s => if s = "d/a.tif" ∨ s = "e/a.tif" then "a.tif" else if s = "e/b.tif" then "b.tif" else s
  stem := fun s => if s = "e/a.tif" then "a" else if s = "e/b.tif" then "b" else s
  create := fun i => .ok ⟨i, []⟩
  extrinsic := fun x o => .ok [x.1, x.2.1, x.2.2, o.1, o.2.1, o.2.2]
  intParam := [("wide", 24), ("tele", 80)]
  extParam := extOf exDict

theorem ex_read : readCsv exEnv.name exParse exConv .xyzOpk false exRows [] = .ok exDict := by rfl

/-- The row of `b` is that of the image `e/b.tif`, by its stem. -/
theorem ex_row : RowOf exEnv exRows "e/b.tif" (mkRow exFields ["b", "9", "7", "5", "3", "2", "1", "tele"]) := by
  refine ⟨by simp [exRows], "b", rfl, Or.inr ⟨?_, rfl⟩⟩
  intro r hr t ht
  simp only [exRows, List.mem_cons, List.not_mem_nil, or_false] at hr
  rcases hr with rfl | rfl
  · obtain rfl : "d/a.tif" = t := by
      have h : some (some "d/a.tif") = some (some t) := ht
      simpa using h
    decide
  · obtain rfl : "b" = t := by
      have h : some (some "b") = some (some t) := ht
      simpa using h
    decide

example : exEnv.getCam (exEnv.run .init ["e/a.tif", "none"]) "e/b.tif" = .ok (some ⟨80, [9, 7, 5, 30, 20, 10]⟩) := by
  obtain ⟨px, py, pz, ox, oy, oz, xyz, opk, ⟨⟨_, a1, b1⟩, ⟨_, a2, b2⟩, ⟨_, a3, b3⟩, rfl⟩,
    ⟨⟨_, a4, b4⟩, ⟨_, a5, b5⟩, ⟨_, a6, b6⟩, rfl⟩, h⟩ := C101_pose exEnv exParse exConv .xyzOpk false exRows exDict (by decide +kernel)
      ex_read rfl (by decide +kernel) ["e/a.tif", "none"] "e/b.tif" _ ex_row 80 (Or.inl ⟨"tele", rfl, by decide, rfl⟩) ⟨80, []⟩ rfl
  cases a1; cases a2; cases a3; cases a4; cases a5; cases a6
  cases b1; cases b2; cases b3; cases b4; cases b5; cases b6
  exact h _ rfl

example : exEnv.getCam (exEnv.run .init ["e/a.tif"]) "none" = .error .paramError := by
  refine C101_missing exEnv exParse exConv .xyzOpk false exRows exDict ex_read rfl (by decide +kernel) ["e/a.tif"] "none" ?_
  intro r hr t ht
  simp only [exRows, List.mem_cons, List.not_mem_nil, or_false] at hr
  rcases hr with rfl | rfl
  · obtain rfl : "d/a.tif" = t := by
      have h : some (some "d/a.tif") = some (some t) := ht
      simpa using h
    decide
  · obtain rfl : "b" = t := by
      have h : some (some "b") = some (some t) := ht
      simpa using h
    decide

end Verif.Factory.CsvPose
