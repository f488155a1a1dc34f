import Verif.Tiles.Spec
import Mathlib.Data.List.Count
import Mathlib.Data.List.Basic
import Mathlib.Tactic.Ring
import Mathlib.Tactic.Linarith

set_option autoImplicit false

namespace Verif.Tiles

theorem lt_ceilDiv {n s k : ℕ} (hs : 0 < s) : k < (n + s - 1) / s ↔ k * s < n := by
  constructor
  · intro h
    have h1 : (k + 1) * s ≤ n + s - 1 := (Nat.le_div_iff_mul_le hs).1 h
    have : (k + 1) * s = k * s + s := by ring
    omega
  · intro h
    refine (Nat.le_div_iff_mul_le hs).2 ?_
    have : (k + 1) * s = k * s + s := by ring
    rw [Nat.succ_eq_add_one]
    omega

theorem mem_pyRange {n s x : ℕ} (hs : 0 < s) : x ∈ pyRange n s ↔ x < n ∧ s ∣ x := by
  unfold pyRange
  simp only [List.mem_map, List.mem_range]
  constructor
  · rintro ⟨k, hk, rfl⟩
    exact ⟨(lt_ceilDiv hs).1 hk, Dvd.intro_left k rfl⟩
  · rintro ⟨hx, k, rfl⟩
    exact ⟨k, (lt_ceilDiv hs).2 (by rwa [Nat.mul_comm]), by ring⟩

theorem countP_range_eq {m a : ℕ} (h : a < m) (p : ℕ → Bool)
    (hp : ∀ k < m, (p k = true ↔ k = a)) : (List.range m).countP p = 1 := by
  have h1 : (List.range m).countP p = (List.range m).countP (fun k => k == a) := by
    apply List.countP_congr
    intro k hk
    simp [hp k (List.mem_range.1 hk)]
  rw [h1]
  change List.count a (List.range m) = 1
  rw [List.nodup_range.count, if_pos (List.mem_range.2 h)]

theorem countP_pyRange {n s c : ℕ} (hs : 0 < s) (hc : c < n) (p : ℕ → Bool)
    (hp : ∀ x, s ∣ x → x < n → (p x = true ↔ x ≤ c ∧ c < x + s)) :
    (pyRange n s).countP p = 1 := by
  unfold pyRange
  rw [List.countP_map]
  have hlt : c / s < (n + s - 1) / s :=
    (lt_ceilDiv hs).2 (lt_of_le_of_lt (Nat.div_mul_le_self c s) hc)
  refine countP_range_eq hlt _ ?_
  intro k hk
  have hkn := (lt_ceilDiv hs).1 hk
  simp only [Function.comp]
  rw [hp (k * s) (Dvd.intro_left k rfl) hkn]
  constructor
  · rintro ⟨h1, h2⟩
    symm
    rw [Nat.div_eq_iff hs]
    constructor <;> [skip; skip] <;> omega
  · rintro rfl
    have := Nat.div_add_mod c s
    have h2 := Nat.mod_lt c hs
    rw [Nat.mul_comm] at this
    omega

theorem countP_flatMap_and {α β γ : Type} (l₁ : List α) (l₂ : List β) (mk : α → β → γ)
    (p : γ → Bool) (f : α → Bool) (g : β → Bool)
    (h : ∀ a ∈ l₁, ∀ b ∈ l₂, p (mk a b) = (f a && g b)) :
    (l₁.flatMap fun a => l₂.map fun b => mk a b).countP p = l₁.countP f * l₂.countP g := by
  induction l₁ with
  | nil => simp
  | cons a l ih =>
    rw [List.flatMap_cons, List.countP_append, ih (fun a ha b hb => h a (List.mem_cons_of_mem _ ha) b hb),
      List.countP_map, List.countP_cons]
    have : l₂.countP (p ∘ fun b => mk a b) = if f a then l₂.countP g else 0 := by
      by_cases hf : f a = true
      · rw [if_pos hf]
        apply List.countP_congr
        intro b hb
        simp [h a (List.mem_cons_self ..) b hb, hf]
      · rw [if_neg hf, List.countP_eq_zero]
        intro b hb
        simp [h a (List.mem_cons_self ..) b hb, hf]
    rw [this]
    split <;> ring

theorem blockWindows_eq {im : ImInfo} {bs : Option (ℕ × ℕ)} {ws : List Win}
    (h : blockWindows im bs = .ok ws) :
    0 < (resolveBlock im bs).1 ∧ 0 < (resolveBlock im bs).2 ∧
    ws = (pyRange im.width (resolveBlock im bs).2).flatMap fun xstart =>
      (pyRange im.height (resolveBlock im bs).1).map fun ystart =>
        { colOff := xstart, rowOff := ystart,
          width := min (xstart + (resolveBlock im bs).2) im.width - xstart,
          height := min (ystart + (resolveBlock im bs).1) im.height - ystart } := by
  unfold blockWindows at h
  simp only at h
  split at h
  · cases h
  · rename_i hn
    push Not at hn
    refine ⟨Nat.pos_of_ne_zero hn.2, Nat.pos_of_ne_zero hn.1, ?_⟩
    cases h
    rfl

theorem mem_blockWindows {im : ImInfo} {bs : Option (ℕ × ℕ)} {ws : List Win}
    (h : blockWindows im bs = .ok ws) {w : Win} (hw : w ∈ ws) :
    w.colOff < im.width ∧ w.rowOff < im.height ∧
    w.width = min (w.colOff + (resolveBlock im bs).2) im.width - w.colOff ∧
    w.height = min (w.rowOff + (resolveBlock im bs).1) im.height - w.rowOff := by
  obtain ⟨h1, h2, rfl⟩ := blockWindows_eq h
  simp only [List.mem_flatMap, List.mem_map] at hw
  obtain ⟨x, hx, y, hy, rfl⟩ := hw
  exact ⟨((mem_pyRange h2).1 hx).1, ((mem_pyRange h1).1 hy).1, rfl, rfl⟩

end Verif.Tiles
