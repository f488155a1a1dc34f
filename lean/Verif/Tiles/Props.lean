import Verif.Tiles.Lemmas

/-!
# C01: tiles cover every pixel exactly once
-/

set_option autoImplicit false

namespace Verif.Tiles

/-- C01: whenever `block_windows` does not raise, its windows tile the image.  For all image sizes,
drivers and block shapes. -/
theorem C01_tiles_partition (im : ImInfo) (bs : Option (ℕ × ℕ)) (ws : List Win)
    (h : blockWindows im bs = .ok ws) : Tiling im.height im.width ws := by
  constructor
  · intro w hw
    obtain ⟨h1, h2, h3, h4⟩ := mem_blockWindows h hw
    obtain ⟨p1, p2, -⟩ := blockWindows_eq h
    rw [h3, h4]
    omega
  · intro r hr c hc
    obtain ⟨p1, p2, rfl⟩ := blockWindows_eq h
    rw [countP_flatMap_and (f := fun x => decide (x ≤ c ∧ c < x + (resolveBlock im bs).2))
      (g := fun y => decide (y ≤ r ∧ r < y + (resolveBlock im bs).1))]
    · rw [countP_pyRange p2 hc, countP_pyRange p1 hr]
      · intro x _ _; simp
      · intro x _ _; simp
    · intro x _ y _
      simp only [Win.Has]
      rw [← Bool.decide_and]
      congr 1
      apply propext
      constructor <;> intro h <;> omega

/-- C01: `block_windows` raises only for a zero block size. -/
theorem C01_tiles_defined (im : ImInfo) (bs : Option (ℕ × ℕ))
    (h : 0 < (resolveBlock im bs).1 ∧ 0 < (resolveBlock im bs).2) :
    ∃ ws, blockWindows im bs = .ok ws := by
  unfold blockWindows
  simp only
  rw [if_neg (by omega)]
  exact ⟨_, rfl⟩

/-- C01: no window is larger than the block shape, nor than the first window.  The tile workers slice
grids made for the first window, so this is what makes those slices full size. -/
theorem C01_first_tile_largest (im : ImInfo) (bs : Option (ℕ × ℕ)) (w₀ : Win) (ws : List Win)
    (h : blockWindows im bs = .ok (w₀ :: ws)) :
    ∀ w ∈ w₀ :: ws, w.width ≤ w₀.width ∧ w.height ≤ w₀.height ∧
      w.width ≤ (resolveBlock im bs).2 ∧ w.height ≤ (resolveBlock im bs).1 := by
  intro w hw
  obtain ⟨p1, p2, he⟩ := blockWindows_eq h
  have hw0 : w₀.colOff = 0 ∧ w₀.rowOff = 0 := by
    have hwm := mem_blockWindows h hw
    have hW : 0 < im.width := by omega
    have hH : 0 < im.height := by omega
    have e1 : ∃ l, pyRange im.width (resolveBlock im bs).2 = 0 :: l := by
      unfold pyRange
      obtain ⟨m, hm⟩ : ∃ m, (im.width + (resolveBlock im bs).2 - 1) / (resolveBlock im bs).2 = m + 1 :=
        Nat.exists_eq_succ_of_ne_zero
          (by have := (lt_ceilDiv (n := im.width) (k := 0) p2).2 (by omega); omega)
      rw [hm, List.range_succ_eq_map]
      simp
    have e2 : ∃ l, pyRange im.height (resolveBlock im bs).1 = 0 :: l := by
      unfold pyRange
      obtain ⟨m, hm⟩ : ∃ m, (im.height + (resolveBlock im bs).1 - 1) / (resolveBlock im bs).1 = m + 1 :=
        Nat.exists_eq_succ_of_ne_zero
          (by have := (lt_ceilDiv (n := im.height) (k := 0) p1).2 (by omega); omega)
      rw [hm, List.range_succ_eq_map]
      simp
    obtain ⟨l1, e1⟩ := e1
    obtain ⟨l2, e2⟩ := e2
    rw [e1, e2] at he
    simp only [List.flatMap_cons, List.map_cons, List.cons_append, List.cons.injEq] at he
    rw [he.1]
    simp
  obtain ⟨a1, a2, a3, a4⟩ := mem_blockWindows h hw
  obtain ⟨b1, b2, b3, b4⟩ := mem_blockWindows h (List.mem_cons_self ..)
  rw [hw0.1] at b3
  rw [hw0.2] at b4
  rw [a3, a4, b3, b4]
  omega

/-- C01: each window is one block of the grid of blocks: of the given shape, else for a COG file of its block size (512 if it has none), else of the
file's own block shape.  So no block of the file is in two windows. -/
theorem C01_blocks (im : ImInfo) (bs : Option (ℕ × ℕ)) (ws : List Win) (h : blockWindows im bs = .ok ws) (bh bw : ℕ)
    (hb : (bh, bw) = match bs, im.cog, im.blocksize with
      | some s, _, _ => s
      | none, true, some n => (n, n)
      | none, true, none => (512, 512)
      | none, false, _ => im.blockShape0) (w : Win) (hw : w ∈ ws) :
    ∃ i j, ∀ r c, w.Has r c ↔ r < im.height ∧ c < im.width ∧ r / bh = i ∧ c / bw = j := by
  have hres : resolveBlock im bs = (bh, bw) := by
    rw [hb]
    unfold resolveBlock
    cases bs with
    | some s => rfl
    | none => cases im.cog <;> cases im.blocksize <;> rfl
  obtain ⟨p1, p2, he⟩ := blockWindows_eq h
  rw [hres] at p1 p2 he
  rw [he] at hw
  simp only [List.mem_flatMap, List.mem_map] at hw p1 p2
  obtain ⟨x, hx, y, hy, rfl⟩ := hw
  unfold pyRange at hx hy
  obtain ⟨j, -, rfl⟩ := List.mem_map.1 hx
  obtain ⟨i, -, rfl⟩ := List.mem_map.1 hy
  refine ⟨i, j, fun r c => ?_⟩
  unfold Win.Has
  simp only
  rw [Nat.div_eq_iff p1, Nat.div_eq_iff p2]
  omega

/-- A 5 x 7 image in blocks of 2 x 3: nine windows, the last ones truncated. -/
example : ∃ ws, blockWindows ⟨7, 5, false, none, (2, 3)⟩ none = .ok ws ∧ ws.length = 9 ∧
    ws.head? = some ⟨0, 0, 3, 2⟩ ∧ ws.getLast? = some ⟨6, 4, 1, 1⟩ := ⟨_, rfl, by decide⟩

/-- A COG without a `blocksize` entry uses 512 x 512 blocks. -/
example : ∃ ws, blockWindows ⟨1000, 600, true, none, (1, 1000)⟩ none = .ok ws ∧ ws.length = 4 :=
  ⟨_, rfl, by decide⟩

end Verif.Tiles
