import Verif.Exif.Interior
import Mathlib.Algebra.Order.Floor.Ring
import Mathlib.Algebra.BigOperators.Group.List.Basic
import Mathlib.Algebra.Order.BigOperators.Group.List
import Mathlib.Data.Rat.Floor

/-!
# Automatic UTM CRS (C66)
-/

set_option autoImplicit false
set_option linter.unusedSectionVars false

namespace Verif.Exif

section
variable {K : Type} [Field K] [LinearOrder K] [IsStrictOrderedRing K] [FloorRing K]

/-- `zone`, orthority/common.py:159. -/
def utmZone (lon : K) : ℤ := ⌊(lon + 180) / 6⌋ % 60 + 1

/-- orthority/common.py:156-161 `utm_crs_from_latlon`: the EPSG code. -/
def utmEpsg (lat lon : K) : ℤ := if 0 ≤ lat then 32600 + utmZone lon else 32700 + utmZone lon

/-- The mean of a column, orthority/param_io.py:1344. -/
def mean (l : List K) : K := l.sum / l.length

/-- orthority/param_io.py:1334-1345 `ExifReader._find_utm_crs`, the EPSG code. -/
def findUtm (es : List (ExifObj K)) : Res ℤ := do
  let llas ← mapRes (fun e : ExifObj K => match e.lla with
    | none => .error .paramError
    | some l => .ok (l.1, l.2.1)) es
  pure (utmEpsg (mean (llas.map Prod.fst)) (mean (llas.map Prod.snd)))

/-- Specification: the longitude is in the 6° wide UTM zone, up to whole turns. -/
def InZone (lon : K) (zone : ℤ) : Prop := ∃ n : ℤ, 6 * (zone - 1) - 180 ≤ lon + 360 * n ∧ lon + 360 * n < 6 * zone - 180

/-- C66: the zone is between 1 and 60 and contains the longitude, for every longitude. -/
theorem C66_zone (lon : K) : 1 ≤ utmZone lon ∧ utmZone lon ≤ 60 ∧ InZone lon (utmZone lon) := by
  have h1 : 0 ≤ ⌊(lon + 180) / 6⌋ % 60 := Int.emod_nonneg _ (by norm_num)
  have h2 : ⌊(lon + 180) / 6⌋ % 60 < 60 := Int.emod_lt_of_pos _ (by norm_num)
  refine ⟨by unfold utmZone; linarith, by unfold utmZone; linarith, -(⌊(lon + 180) / 6⌋ / 60), ?_⟩
  have hd := Int.emod_add_mul_ediv ⌊(lon + 180) / 6⌋ 60
  have hd : ((⌊(lon + 180) / 6⌋ % 60 : ℤ) : K) + 60 * ((⌊(lon + 180) / 6⌋ / 60 : ℤ) : K) = (⌊(lon + 180) / 6⌋ : K) := by
    exact_mod_cast hd
  have f1 := Int.floor_le ((lon + 180) / 6)
  have f2 := Int.lt_floor_add_one ((lon + 180) / 6)
  rw [le_div_iff₀ (by norm_num)] at f1
  rw [div_lt_iff₀ (by norm_num)] at f2
  unfold utmZone
  push_cast
  constructor <;> linarith

/-- C66: the code is the one of the zone, north of and on the equator and south of it. -/
theorem C66_hemisphere (lat lon : K) :
    (0 ≤ lat → utmEpsg lat lon = 32600 + utmZone lon) ∧ (lat < 0 → utmEpsg lat lon = 32700 + utmZone lon) :=
  ⟨fun h => if_pos h, fun h => if_neg (not_le.2 h)⟩

/-- The zone is the only one that contains a longitude. -/
theorem zone_unique (lon : K) (z : ℤ) (h1 : 1 ≤ z) (h2 : z ≤ 60) (h : InZone lon z) : z = utmZone lon := by
  obtain ⟨h3, h4, m, hm1, hm2⟩ := C66_zone lon
  obtain ⟨n, hn1, hn2⟩ := h
  have a1 : (6 * (z - 1) - 180 : K) - 360 * n < 6 * utmZone lon - 180 - 360 * m := by linarith
  have a2 : (6 * (utmZone lon - 1) - 180 : K) - 360 * m < 6 * z - 180 - 360 * n := by linarith
  have b1 : (6 * (z - 1) - 180 : ℤ) - 360 * n < 6 * utmZone lon - 180 - 360 * m := by exact_mod_cast a1
  have b2 : (6 * (utmZone lon - 1) - 180 : ℤ) - 360 * m < 6 * z - 180 - 360 * n := by exact_mod_cast a2
  omega

/-- C66: longitudes a whole number of turns apart give the same zone. -/
theorem C66_turns (lon : K) (n : ℤ) : utmZone (lon + 360 * n) = utmZone lon := by
  obtain ⟨h1, h2, m, hm1, hm2⟩ := C66_zone (lon + 360 * n)
  refine zone_unique lon _ h1 h2 ⟨n + m, ?_, ?_⟩
  · push_cast; linarith
  · push_cast; linarith

theorem sum_bounds (l : List K) (a b : K) (h : ∀ x ∈ l, a ≤ x ∧ x < b) (hne : l ≠ []) :
    a * l.length ≤ l.sum ∧ l.sum < b * l.length := by
  induction l with
  | nil => exact absurd rfl hne
  | cons x xs ih =>
    have hx := h x (by simp)
    rw [List.sum_cons, List.length_cons]
    push_cast
    by_cases hxs : xs = []
    · subst hxs; simp only [List.sum_nil, List.length_nil]; push_cast; constructor <;> linarith [hx.1, hx.2]
    · obtain ⟨i1, i2⟩ := ih (fun y hy => h y (by simp [hy])) hxs
      constructor <;> linarith [hx.1, hx.2]

theorem mean_bounds (l : List K) (a b : K) (h : ∀ x ∈ l, a ≤ x ∧ x < b) (hne : l ≠ []) : a ≤ mean l ∧ mean l < b := by
  have hl : (0 : K) < l.length := by
    have := List.length_pos_iff.2 hne
    exact_mod_cast this
  obtain ⟨h1, h2⟩ := sum_bounds l a b h hne
  unfold mean
  exact ⟨by rwa [le_div_iff₀ hl], by rwa [div_lt_iff₀ hl]⟩

theorem mapRes_ok {A B : Type} (f : A → Res B) (g : A → B) (l : List A) (h : ∀ a ∈ l, f a = .ok (g a)) :
    mapRes f l = .ok (l.map g) := by
  induction l with
  | nil => rfl
  | cons x xs ih => rw [mapRes, h x (by simp), ih fun a ha => h a (by simp [ha])]; rfl

theorem mapRes_error {A B : Type} (f : A → Res B) (e : PyErr) (l : List A) (a : A) (ha : a ∈ l) (h : f a = .error e)
    (hall : ∀ a ∈ l, ∀ e', f a = .error e' → e' = e) : mapRes f l = .error e := by
  induction l with
  | nil => simp at ha
  | cons x xs ih =>
    rw [mapRes]
    cases hx : f x with
    | error e' => rw [hall x (by simp) e' hx]; rfl
    | ok y =>
      rcases List.mem_cons.1 ha with rfl | ha
      · rw [h] at hx; cases hx
      · rw [ih ha fun a ha => hall a (by simp [ha])]; rfl

/-- C66, the part that holds: when all images are in one zone, given with longitudes of the same turn, and on one side of the
equator, that zone and side give the CRS.  Missing: images on both sides of the 180° meridian (`C66_antimeridian_fails`). -/
theorem C66_images_partial (es : List (ExifObj K)) (hne : es ≠ []) (z n : ℤ) (h1 : 1 ≤ z) (h2 : z ≤ 60) (north : Bool)
    (h : ∀ e ∈ es, ∃ lat lon alt, e.lla = some (lat, lon, alt) ∧ 6 * (z - 1) - 180 ≤ lon + 360 * n ∧
      lon + 360 * n < 6 * z - 180 ∧ (if north then 0 ≤ lat ∧ lat ≤ 90 else -90 ≤ lat ∧ lat < 0)) :
    findUtm es = .ok ((if north then 32600 else 32700) + z) := by
  have hm := mapRes_ok (fun e : ExifObj K => match e.lla with
    | none => .error .paramError
    | some l => .ok (l.1, l.2.1)) (fun e => match e.lla with | none => (0, 0) | some l => (l.1, l.2.1)) es (by
      intro e he
      obtain ⟨lat, lon, alt, hl, -⟩ := h e he
      rw [hl])
  unfold findUtm
  rw [hm, Res.ok_bind]
  obtain ⟨m1, m2⟩ := mean_bounds ((es.map (fun e => match e.lla with | none => ((0 : K), (0 : K)) | some l => (l.1, l.2.1))).map
      Prod.snd) (6 * (z - 1) - 180 - 360 * n) (6 * z - 180 - 360 * n) (by
    intro x hx
    simp only [List.map_map, List.mem_map, Function.comp] at hx
    obtain ⟨e, he, rfl⟩ := hx
    obtain ⟨lat, lon, alt, hl, b1, b2, -⟩ := h e he
    rw [hl]
    exact ⟨by linarith, by linarith⟩) (by simpa using hne)
  have hz := zone_unique _ z h1 h2 ⟨n, sub_le_iff_le_add.1 m1, lt_sub_iff_add_lt.1 m2⟩
  have hs : ∀ x ∈ (es.map (fun e => match e.lla with | none => ((0 : K), (0 : K)) | some l => (l.1, l.2.1))).map Prod.fst,
      (if north then 0 ≤ x ∧ x < 91 else -91 ≤ x ∧ x < 0) := by
    intro x hx
    simp only [List.map_map, List.mem_map, Function.comp] at hx
    obtain ⟨e, he, rfl⟩ := hx
    obtain ⟨lat, lon, alt, hl, -, -, b3⟩ := h e he
    rw [hl]
    cases north
    · simp only [Bool.false_eq_true, if_false] at b3 ⊢; exact ⟨by linarith [b3.1], b3.2⟩
    · simp only [if_true] at b3 ⊢; exact ⟨b3.1, by linarith [b3.2]⟩
  cases north
  · simp only [Bool.false_eq_true, if_false] at hs ⊢
    have hb := mean_bounds _ (-91) 0 hs (by simpa using hne)
    rw [(C66_hemisphere _ _).2 hb.2, ← hz]
    rfl
  · simp only [if_true] at hs ⊢
    have hb := mean_bounds _ 0 91 hs (by simpa using hne)
    rw [(C66_hemisphere _ _).1 hb.1, ← hz]
    rfl

/-- C66: an image without a position is a ParamError. -/
theorem C66_no_position (es : List (ExifObj K)) (e : ExifObj K) (he : e ∈ es) (h : e.lla = none) :
    findUtm es = .error .paramError := by
  unfold findUtm
  rw [mapRes_error _ .paramError es e he (by simp [h])]
  · rfl
  · intro a _ e' ha
    cases hl : a.lla with
    | none => rw [hl] at ha; cases ha; rfl
    | some l => rw [hl] at ha; cases ha

/-- An image at a position. -/
def imAt (lat lon : K) : ExifObj K := { zoomIm "a" (1 : K) with lla := some (lat, lon, .one 0) }

end

/-- C66: images a fifth of a degree apart on both sides of the 180° meridian get a CRS on the other side of the earth. -/
theorem C66_antimeridian_fails :
    findUtm [imAt (-17 : ℚ) (1799 / 10), imAt (-17) (-1799 / 10)] = .ok 32731 ∧
      utmEpsg (-17 : ℚ) (1799 / 10) = 32760 ∧ utmEpsg (-17 : ℚ) (-1799 / 10) = 32701 := by decide +kernel

/-- C66: the mean of positions on both sides of the equator decides the side. -/
example : findUtm [imAt (3 : ℚ) 18, imAt (-1) 20] = .ok 32634 := by decide +kernel

example : findUtm [imAt (-33 : ℚ) 18, imAt (-34) (199 / 10)] = .ok 32734 :=
  C66_images_partial _ (by simp) 34 0 (by norm_num) (by norm_num) false (by
    intro e he
    simp only [List.mem_cons, List.not_mem_nil, or_false] at he
    rcases he with rfl | rfl
    · exact ⟨_, _, _, rfl, by norm_num, by norm_num, by norm_num⟩
    · exact ⟨_, _, _, rfl, by norm_num, by norm_num, by norm_num⟩)

end Verif.Exif
