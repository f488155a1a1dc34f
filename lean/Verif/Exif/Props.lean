import Verif.Exif.Model
import Mathlib.Data.Rat.Floor
import Mathlib.Tactic.Ring
import Mathlib.Tactic.NormNum
import Mathlib.Tactic.FieldSimp
import Mathlib.Tactic.Linarith

/-!
# Positions in EXIF and XMP tags (C56)
-/

set_option autoImplicit false
set_option linter.unusedSectionVars false

namespace Verif.Exif

/-! ## Text of tags -/

/-- Specification: the text GDAL gives a tag with the given numbers, like `(25) (30) (12.5)`. -/
def gdalTag : List (List Char) → List Char
  | [] => []
  | [v] => '(' :: v ++ [')']
  | v :: vs => '(' :: v ++ [')', ' '] ++ gdalTag vs

/-- Specification: text of a number in a tag, without spaces or brackets. -/
def NumText (v : List Char) : Prop := v ≠ [] ∧ ' ' ∉ v ∧ '(' ∉ v ∧ ')' ∉ v

theorem splitCh_ne (c : Char) (v : List Char) : splitCh c v ≠ [] := by
  cases v with
  | nil => simp [splitCh]
  | cons x xs =>
    unfold splitCh
    split_ifs
    · simp
    · split <;> simp

theorem splitCh_append (c : Char) (v rest : List Char) (h : c ∉ v) :
    splitCh c (v ++ c :: rest) = v :: splitCh c rest := by
  induction v with
  | nil => simp [splitCh]
  | cons x xs ih =>
    rw [List.mem_cons, not_or] at h
    rw [List.cons_append, splitCh, if_neg (fun e => h.1 e.symm), ih h.2]

theorem splitCh_none (c : Char) (v : List Char) (h : c ∉ v) : splitCh c v = [v] := by
  induction v with
  | nil => rfl
  | cons x xs ih =>
    rw [List.mem_cons, not_or] at h
    rw [splitCh, if_neg (fun e => h.1 e.symm), ih h.2]

theorem dropWhile_none {α : Type} (p : α → Bool) (l : List α) (h : ∀ x ∈ l, p x = false) : l.dropWhile p = l := by
  cases l with
  | nil => rfl
  | cons x xs => rw [List.dropWhile_cons, h x (by simp)]; rfl

theorem strip_num (pre v : List Char) (hpre : ∀ c ∈ pre, c ∈ [' ', '(']) (h : NumText v) :
    strip [' ', '('] (pre ++ v) = v := by
  have hv : ∀ x ∈ v, (fun c => decide (c ∈ [' ', '('])) x = false := by
    intro x hx
    simp only [List.mem_cons, List.not_mem_nil, or_false, decide_eq_false_iff_not, not_or]
    exact ⟨fun e => h.2.1 (e ▸ hx), fun e => h.2.2.1 (e ▸ hx)⟩
  have h1 : (pre ++ v).dropWhile (fun c => decide (c ∈ [' ', '('])) = v := by
    induction pre with
    | nil => exact dropWhile_none _ v hv
    | cons x xs ih =>
      rw [List.cons_append, List.dropWhile_cons, if_pos (by simpa using hpre x (by simp)),
        ih fun c hc => hpre c (by simp [hc])]
  unfold strip
  rw [h1, dropWhile_none, List.reverse_reverse]
  intro x hx
  exact hv x (by simpa using hx)

theorem mapRes_map {α β γ : Type} (f : β → Res γ) (g : α → β) (l : List α) :
    mapRes f (l.map g) = mapRes (fun a => f (g a)) l := by
  induction l with
  | nil => rfl
  | cons x xs ih => simp only [List.map_cons, mapRes, ih]

section
variable {K : Type} [Field K] [LinearOrder K] [IsStrictOrderedRing K] [FloorRing K]

/-- Splitting and stripping gives the numbers of a tag. -/
theorem split_gdalTag (pre : List Char) (hpre : ∀ c ∈ pre, c = ' ') (vs : List (List Char)) (hne : vs ≠ [])
    (h : ∀ v ∈ vs, NumText v) :
    ((splitCh ')' (pre ++ gdalTag vs)).filter fun v => decide (0 < v.length)).map (strip [' ', '(']) = vs := by
  induction vs generalizing pre with
  | nil => exact absurd rfl hne
  | cons v vs ih =>
    have hv := h v (by simp)
    have hno : ')' ∉ pre ++ '(' :: v := by
      rw [List.mem_append, List.mem_cons]
      rintro (hp | hp | hp)
      · exact absurd (hpre _ hp) (by decide)
      · exact absurd hp (by decide)
      · exact hv.2.2.2 hp
    have hs : strip [' ', '('] (pre ++ '(' :: v) = v := by
      have := strip_num (pre ++ ['(']) v (by
        intro c hc
        rcases List.mem_append.1 hc with hc | hc
        · rw [hpre c hc]; decide
        · simp only [List.mem_singleton] at hc; rw [hc]; decide) hv
      rwa [List.append_assoc] at this
    cases vs with
    | nil =>
      have e : pre ++ gdalTag [v] = (pre ++ '(' :: v) ++ ')' :: [] := by simp [gdalTag]
      rw [e, splitCh_append _ _ _ hno]
      simp [splitCh, hs]
    | cons w ws =>
      have e : pre ++ gdalTag (v :: w :: ws) = (pre ++ '(' :: v) ++ ')' :: ([' '] ++ gdalTag (w :: ws)) := by
        simp [gdalTag]
      rw [e, splitCh_append _ _ _ hno, List.filter_cons, if_pos (by simp), List.map_cons, hs,
        ih [' '] (by simp) (by simp) fun u hu => h u (by simp [hu])]

/-- C56: the numbers read from a tag are the numbers in its text, in order. -/
theorem C56_tag (ps : Parse K) (vs : List (List Char)) (hne : vs ≠ []) (h : ∀ v ∈ vs, NumText v) (xs : List K)
    (hx : vs.map ps.flt = xs.map some) : exifNums ps (gdalTag vs) = .ok xs := by
  have h1 := split_gdalTag [] (by simp) vs hne h
  rw [List.nil_append] at h1
  unfold exifNums
  rw [← mapRes_map (fun v => orValueError (ps.flt v)) (strip [' ', '(']), h1]
  clear h1 h hne
  induction vs generalizing xs with
  | nil =>
    cases xs with
    | nil => rfl
    | cons x xs => simp at hx
  | cons v vs ih =>
    cases xs with
    | nil => simp at hx
    | cons x xs =>
      rw [List.map_cons, List.map_cons, List.cons.injEq] at hx
      rw [mapRes, hx.1, ih xs hx.2]
      rfl

theorem exifFloat_none (ps : Parse K) (d : Tags) (key : String) (h : d.get? key = none) :
    exifFloat ps d key = .ok none := by unfold exifFloat; rw [h]

theorem exifFloat_one (ps : Parse K) (d : Tags) (key : String) (v : List Char) (hv : NumText v) (x : K)
    (hx : ps.flt v = some x) (h : d.get? key = some (gdalTag [v])) : exifFloat ps d key = .ok (some (.one x)) := by
  unfold exifFloat
  simp only [h]
  rw [C56_tag ps [v] (by simp) (by simpa using hv) [x] (by simp [hx]), Res.ok_bind]
  rfl

theorem exifFloat_three (ps : Parse K) (d : Tags) (key : String) (u v w : List Char) (hu : NumText u) (hv : NumText v)
    (hw : NumText w) (x y z : K) (hx : ps.flt u = some x) (hy : ps.flt v = some y) (hz : ps.flt w = some z)
    (h : d.get? key = some (gdalTag [u, v, w])) : exifFloat ps d key = .ok (some (.many [x, y, z])) := by
  unfold exifFloat
  simp only [h]
  rw [C56_tag ps [u, v, w] (by simp) (by simpa using ⟨hu, hv, hw⟩) [x, y, z] (by simp [hx, hy, hz]), Res.ok_bind]
  rfl

/-! ## The position of an image -/

/-- Specification: a latitude or longitude tag with its texts and values. -/
structure Dms (ps : Parse K) (d : Tags) (key : String) (deg min sec : K) : Prop where
  text : ∃ u v w, NumText u ∧ NumText v ∧ NumText w ∧ ps.flt u = some deg ∧ ps.flt v = some min ∧ ps.flt w = some sec ∧
    d.get? key = some (gdalTag [u, v, w])

theorem Dms.float {ps : Parse K} {d : Tags} {key : String} {a b c : K} (h : Dms ps d key a b c) :
    exifFloat ps d key = .ok (some (.many [a, b, c])) ∧ ∃ s, d.get? key = some s := by
  obtain ⟨u, v, w, hu, hv, hw, hx, hy, hz, hd⟩ := h.text
  exact ⟨exifFloat_three ps d key u v w hu hv hw _ _ _ hx hy hz hd, _, hd⟩

theorem exifInit_lla {ps : Parse K} {lower str : List Char → String} {f : ImFile} {e : ExifObj K}
    (h : exifInit ps lower str f = .ok e) : llaOr (xmpLla ps f.xmpDict schemas) (exifLla ps f.exifDict) = .ok e.lla := by
  unfold exifInit at h
  cases h1 : tagImSize ps f.exifDict with
  | error x => simp only [h1] at h; cases h
  | ok a =>
  cases h2 : sensorSize ps f.exifDict f.imSize with
  | error x => simp only [h1, h2] at h; cases h
  | ok b =>
  cases h3 : exifFloat ps f.exifDict "EXIF_FocalLengthIn35mmFilm" with
  | error x => simp only [h1, h2, h3] at h; cases h
  | ok c =>
  cases h4 : exifFloat ps f.exifDict "EXIF_FocalLength" with
  | error x => simp only [h1, h2, h3, h4] at h; cases h
  | ok c =>
  cases h5 : llaOr (xmpLla ps f.xmpDict schemas) (exifLla ps f.exifDict) with
  | error x => simp only [h1, h2, h3, h4, h5] at h; cases h
  | ok l =>
  cases h6 : xmpRpy ps f.xmpDict schemas with
  | error x => simp only [h1, h2, h3, h4, h5, h6] at h; cases h
  | ok r =>
  cases h7 : xmpDewarp ps f.xmpDict schemas with
  | error x => simp only [h1, h2, h3, h4, h5, h6, h7] at h; cases h
  | ok w =>
  simp only [h1, h2, h3, h4, h5, h6, h7, Res.ok_bind] at h
  cases h
  rfl

/-- Specification: the names of the three XMP position tags. -/
def xmpLat : String := "{http://www.dji.com/drone-dji/1.0/}GpsLatitude"
def xmpLon : String := "{http://www.dji.com/drone-dji/1.0/}GpsLongtitude"
def xmpAlt : String := "{http://www.dji.com/drone-dji/1.0/}AbsoluteAltitude"

theorem has_iff {α : Type} (d : Dict String α) (k : String) : d.has k = true ↔ ∃ v, d.get? k = some v := by
  unfold Dict.has
  rw [Option.isSome_iff_exists]

theorem xmpLla_all (ps : Parse K) (d : Xmp) (s1 s2 s3 : List Char) (x y z : K) (h1 : d.get? xmpLat = some (some s1))
    (h2 : d.get? xmpLon = some (some s2)) (h3 : d.get? xmpAlt = some (some s3)) (hx : ps.flt s1 = some x)
    (hy : ps.flt s2 = some y) (hz : ps.flt s3 = some z) : xmpLla ps d schemas = .ok (some (x, y, z)) := by
  have hl : d.has xmpLat = true := (has_iff _ _).2 ⟨_, h1⟩
  have hn : d.has xmpLon = true := (has_iff _ _).2 ⟨_, h2⟩
  have ha : d.has xmpAlt = true := (has_iff _ _).2 ⟨_, h3⟩
  have e : (schemas : List (XmpSchema K)).head? = some ⟨[xmpLat, xmpLon, xmpAlt],
    [djiKey "GimbalRollDegree", djiKey "GimbalPitchDegree", djiKey "GimbalYawDegree"],
    some (djiKey "DewarpData"), (0, 90, 0), (1, 1, 1)⟩ := rfl
  obtain ⟨t, ht⟩ : ∃ t, (schemas : List (XmpSchema K)) = ⟨[xmpLat, xmpLon, xmpAlt],
    [djiKey "GimbalRollDegree", djiKey "GimbalPitchDegree", djiKey "GimbalYawDegree"],
    some (djiKey "DewarpData"), (0, 90, 0), (1, 1, 1)⟩ :: t := ⟨_, rfl⟩
  rw [ht, xmpLla, if_pos (by simp [countKeys, hl, hn, ha])]
  simp only [mapRes, xmpFloat, h1, h2, h3, hx, hy, hz, orValueError, Res.ok_bind, three]
  rfl

theorem xmpLla_missing (ps : Parse K) (d : Xmp) (h : d.get? xmpLat = none ∨ d.get? xmpLon = none ∨ d.get? xmpAlt = none) :
    xmpLla ps d schemas = .ok none := by
  have hc : countKeys d [djiKey "GpsLatitude", djiKey "GpsLongtitude", djiKey "AbsoluteAltitude"] ≠ 3 := by
    intro hc
    unfold countKeys at hc
    have := (List.length_filter_eq_length_iff (l := [djiKey "GpsLatitude", djiKey "GpsLongtitude", djiKey "AbsoluteAltitude"])).1 hc
    have hall : ∀ k ∈ [xmpLat, xmpLon, xmpAlt], d.has k = true := this
    rcases h with h | h | h
    · have := hall xmpLat (by simp); rw [has_iff, h] at this; simp at this
    · have := hall xmpLon (by simp); rw [has_iff, h] at this; simp at this
    · have := hall xmpAlt (by simp); rw [has_iff, h] at this; simp at this
  unfold schemas
  rw [xmpLla, if_neg hc, xmpLla, if_neg (by simp [countKeys]), xmpLla, if_neg (by simp [countKeys]), xmpLla]

/-- C56: the tags of an image are those in the default namespace, and those in the EXIF namespace count only when the default
one is empty. -/
theorem C56_tags (ps : Parse K) (lower str : List Char → String) (f : ImFile) :
    (f.tags ≠ [] → ∀ t, exifInit ps lower str { f with exifTags := t } = exifInit ps lower str f) ∧
    (f.tags = [] → exifInit ps lower str { f with tags := f.exifTags, exifTags := [] } = exifInit ps lower str f) := by
  constructor
  · intro h t
    have : ({ f with exifTags := t } : ImFile).exifDict = f.exifDict := by
      unfold ImFile.exifDict
      rw [if_neg (by simpa using h), if_neg (by simpa using h)]
    unfold exifInit
    rw [this]
    rfl
  · intro h
    have : ({ f with tags := f.exifTags, exifTags := [] } : ImFile).exifDict = f.exifDict := by
      unfold ImFile.exifDict
      simp only [h, List.length_nil, if_true]
      split
      · rename_i h0; exact (List.length_eq_zero_iff.1 h0).symm
      · rfl
    unfold exifInit
    rw [this]
    rfl

/-- C56: when all three XMP position tags exist, the position is exactly theirs, whatever the EXIF tags are. -/
theorem C56_xmp (ps : Parse K) (lower str : List Char → String) (f : ImFile) (e : ExifObj K)
    (h : exifInit ps lower str f = .ok e) (s1 s2 s3 : List Char) (x y z : K)
    (h1 : f.xmpDict.get? xmpLat = some (some s1)) (h2 : f.xmpDict.get? xmpLon = some (some s2))
    (h3 : f.xmpDict.get? xmpAlt = some (some s3)) (hx : ps.flt s1 = some x)
    (hy : ps.flt s2 = some y) (hz : ps.flt s3 = some z) : e.lla = some (x, y, .one z) := by
  have := exifInit_lla h
  rw [xmpLla_all ps _ s1 s2 s3 x y z h1 h2 h3 hx hy hz] at this
  simp only [llaOr, Res.ok_bind] at this
  exact (Except.ok.inj this).symm

theorem inNE_iff (a : Char) : inNE [a] = true ↔ a = 'N' ∨ a = 'E' := by
  unfold inNE
  rw [decide_eq_true_iff]
  constructor
  · intro h
    have := h.subset (List.mem_singleton.2 rfl)
    simpa using this
  · rintro (rfl | rfl)
    · exact ⟨[], ['E'], rfl⟩
    · exact ⟨['N'], [], rfl⟩

theorem dms_ok (a b c : K) (ref : List Char) :
    dmsToDecimal (.many [a, b, c]) ref = .ok (((c / 60 + b) / 60 + a) * (if inNE ref then 1 else -1)) := rfl

/-- C56: when an XMP position tag is missing, the position is the one of the EXIF tags: degrees, minutes and seconds are
converted to decimal degrees, negative for south and west, and the altitude is negative when its reference is 1. -/
theorem C56_exif (ps : Parse K) (lower str : List Char → String) (f : ImFile) (e : ExifObj K)
    (h : exifInit ps lower str f = .ok e)
    (hxmp : f.xmpDict.get? xmpLat = none ∨ f.xmpDict.get? xmpLon = none ∨ f.xmpDict.get? xmpAlt = none)
    (d1 m1 s1 d2 m2 s2 : K) (h1 : Dms ps f.exifDict "EXIF_GPSLatitude" d1 m1 s1)
    (h2 : Dms ps f.exifDict "EXIF_GPSLongitude" d2 m2 s2) (latRef lonRef : List Char) (sLat sLon : K)
    (hr1 : f.exifDict.get? "EXIF_GPSLatitudeRef" = some latRef) (hr2 : f.exifDict.get? "EXIF_GPSLongitudeRef" = some lonRef)
    (hs1 : latRef = ['N'] ∧ sLat = 1 ∨ latRef = ['S'] ∧ sLat = -1)
    (hs2 : lonRef = ['E'] ∧ sLon = 1 ∨ lonRef = ['W'] ∧ sLon = -1)
    (a : List Char) (ha : NumText a) (alt : K) (hav : ps.flt a = some alt)
    (halt : f.exifDict.get? "EXIF_GPSAltitude" = some (gdalTag [a])) (r : List Char) (n : ℤ)
    (hr : f.exifDict.get? "EXIF_GPSAltitudeRef" = some r) (hn : ps.int0 r = some n) :
    e.lla = some (sLat * (d1 + m1 / 60 + s1 / 3600), sLon * (d2 + m2 / 60 + s2 / 3600), .one (if n = 1 then -alt else alt)) := by
  have hl := exifInit_lla h
  rw [xmpLla_missing ps _ hxmp] at hl
  have hl : exifLla ps f.exifDict = .ok e.lla := hl
  obtain ⟨f1, t1, g1⟩ := h1.float
  obtain ⟨f2, t2, g2⟩ := h2.float
  unfold exifLla at hl
  rw [hr1, hr2, g1, g2] at hl
  simp only [f1, f2, exifFloat_one ps _ _ a ha alt hav halt, hr, hn, Option.getD_some, dms_ok, Res.ok_bind, orValueError]
    at hl
  have e1 : (if inNE latRef = true then (1 : K) else -1) = sLat := by
    rcases hs1 with ⟨rfl, rfl⟩ | ⟨rfl, rfl⟩
    · rw [if_pos ((inNE_iff _).2 (Or.inl rfl))]
    · rw [if_neg (by rw [inNE_iff]; decide)]
  have e2 : (if inNE lonRef = true then (1 : K) else -1) = sLon := by
    rcases hs2 with ⟨rfl, rfl⟩ | ⟨rfl, rfl⟩
    · rw [if_pos ((inNE_iff _).2 (Or.inr rfl))]
    · rw [if_neg (by rw [inNE_iff]; decide)]
  have e3 : (if n = 1 then (orZero (some (EV.one alt))).neg else orZero (some (.one alt))) = .one (if n = 1 then -alt else alt) := by
    by_cases h0 : alt = 0
    · subst h0
      simp [orZero, EV.truthy, EV.neg]
    · simp only [orZero, EV.truthy, h0, ne_eq, not_false_eq_true, decide_true, if_true, EV.neg]
      split_ifs <;> simp
  rw [e1, e2, e3] at hl
  rw [← Except.ok.inj hl]
  congr 2
  · ring
  · congr 1; ring

/-- C56: without an altitude tag the altitude is zero, and without a reference tag it is not negated. -/
theorem C56_default_altitude (ps : Parse K) (d : Tags) (d1 m1 s1 d2 m2 s2 : K) (h1 : Dms ps d "EXIF_GPSLatitude" d1 m1 s1)
    (h2 : Dms ps d "EXIF_GPSLongitude" d2 m2 s2) (latRef lonRef : List Char)
    (hr1 : d.get? "EXIF_GPSLatitudeRef" = some latRef) (hr2 : d.get? "EXIF_GPSLongitudeRef" = some lonRef)
    (hr : d.get? "EXIF_GPSAltitudeRef" = none) (h0 : ps.int0 ['0', 'x', '0', '0'] = some 0) (alt : Option K)
    (halt : match alt with
      | none => d.get? "EXIF_GPSAltitude" = none
      | some x => ∃ a, NumText a ∧ ps.flt a = some x ∧ d.get? "EXIF_GPSAltitude" = some (gdalTag [a])) :
    ∃ lat lon, exifLla ps d = .ok (some (lat, lon, .one (alt.getD 0))) := by
  obtain ⟨f1, t1, g1⟩ := h1.float
  obtain ⟨f2, t2, g2⟩ := h2.float
  unfold exifLla
  rw [hr1, hr2, g1, g2]
  cases alt with
  | none =>
    simp only [f1, f2, exifFloat_none ps _ _ halt, hr, h0, Option.getD_some, Option.getD_none, dms_ok, Res.ok_bind, orValueError]
    exact ⟨_, _, rfl⟩
  | some x =>
    obtain ⟨a, ha, hav, halt⟩ := halt
    simp only [f1, f2, exifFloat_one ps _ _ a ha x hav halt, hr, h0, Option.getD_some, Option.getD_none, dms_ok, Res.ok_bind,
      orValueError]
    have e3 : (if (0 : ℤ) = 1 then (orZero (some (EV.one x))).neg else orZero (some (.one x))) = .one x := by
      by_cases hx : x = 0
      · subst hx; simp [orZero, EV.truthy]
      · simp [orZero, EV.truthy, hx]
    rw [e3]
    exact ⟨_, _, rfl⟩

/-- C56: without a complete position in either, there is none, and reading exterior parameters is a ParamError. -/
theorem C56_no_position (ps : Parse K) (lower str : List Char → String) (f : ImFile) (e : ExifObj K)
    (h : exifInit ps lower str f = .ok e)
    (hxmp : f.xmpDict.get? xmpLat = none ∨ f.xmpDict.get? xmpLon = none ∨ f.xmpDict.get? xmpAlt = none)
    (hexif : ∃ k ∈ ["EXIF_GPSLatitudeRef", "EXIF_GPSLongitudeRef", "EXIF_GPSLatitude", "EXIF_GPSLongitude"],
      f.exifDict.get? k = none) (fs : ExtFuns K) : e.lla = none ∧ extParam fs e = .error .paramError := by
  have hl := exifInit_lla h
  rw [xmpLla_missing ps _ hxmp] at hl
  have hl : exifLla ps f.exifDict = .ok e.lla := hl
  have hn : e.lla = none := by
    unfold exifLla at hl
    obtain ⟨k, hk, hk2⟩ := hexif
    split at hl
    · rename_i a b c d
      simp only [List.mem_cons, List.not_mem_nil, or_false] at hk
      rcases hk with rfl | rfl | rfl | rfl <;> simp_all
    · exact (Except.ok.inj hl).symm
  exact ⟨hn, by unfold extParam; rw [hn]⟩

/-- C56: references other than one capital letter are misread: "North" and "n" give southern latitudes. -/
theorem C56_other_refs_fails (a b c : K) :
    (∀ ref ∈ [['N', 'o', 'r', 't', 'h'], ['n']], dmsToDecimal (.many [a, b, c]) ref = .ok (-(a + b / 60 + c / 3600))) ∧
    dmsToDecimal (.many [a, b, c]) [] = .ok (a + b / 60 + c / 3600) := by
  constructor
  · intro ref hr
    have : inNE ref = false := by
      simp only [List.mem_cons, List.not_mem_nil, or_false] at hr
      rcases hr with rfl | rfl <;> decide
    rw [dms_ok, this]
    simp only [Bool.false_eq_true, if_false]
    congr 1; ring
  · rw [dms_ok]
    have : inNE [] = true := by decide
    rw [this, if_pos rfl]
    congr 1; ring

/-! ## XMP documents -/

/-- Specification: the name `k` occurs in an XML document with value `v`, as an element with text or as an attribute. -/
inductive Occurs (k : String) (v : Option (List Char)) : Xml → Prop
  | tag (attrib : List (String × List Char)) (cs : List Xml) : Occurs k v (.node k v attrib cs)
  | attr (t : String) (txt : Option (List Char)) (attrib : List (String × List Char)) (cs : List Xml) (s : List Char)
      (hs : v = some s) (h : (k, s) ∈ attrib) : Occurs k v (.node t txt attrib cs)
  | child (t : String) (txt : Option (List Char)) (attrib : List (String × List Char)) (cs : List Xml) (c : Xml) (hc : c ∈ cs)
      (h : Occurs k v c) : Occurs k v (.node t txt attrib cs)

theorem get?_update {α : Type} (d : Dict String α) (l : List (String × α)) (k : String) :
    (∃ v, (k, v) ∈ l ∧ Dict.get? (Dict.update d l) k = some v) ∨
      ((∀ v, (k, v) ∉ l) ∧ Dict.get? (Dict.update d l) k = Dict.get? d k) := by
  induction l generalizing d with
  | nil => right; exact ⟨by simp, rfl⟩
  | cons p l ih =>
    have e : Dict.update d (p :: l) = Dict.update (Dict.set d p.1 p.2) l := rfl
    rw [e]
    rcases ih (Dict.set d p.1 p.2) with ⟨v, hv, h⟩ | ⟨hn, h⟩
    · exact Or.inl ⟨v, by simp [hv], h⟩
    · rw [Dict.get?_set] at h
      by_cases hp : p.1 = k
      · rw [if_pos hp] at h
        exact Or.inl ⟨p.2, by rw [← hp]; simp, h⟩
      · rw [if_neg hp] at h
        refine Or.inr ⟨fun v hv => ?_, h⟩
        rcases List.mem_cons.1 hv with hv | hv
        · exact hp (by rw [← hv])
        · exact hn v hv

mutual
theorem traverse_get (d : Xmp) (k : String) (x : Xml) :
    (∃ v, Occurs k v x ∧ Dict.get? (traverse d x) k = some v) ∨
      ((∀ v, ¬ Occurs k v x) ∧ Dict.get? (traverse d x) k = Dict.get? d k) := by
  cases x with
  | node t txt attrib cs =>
    rw [traverse]
    rcases traverseAll_get ((d.set t txt).update (attrib.map fun p => (p.1, some p.2))) k cs with
      ⟨v, ⟨c, hc, hv⟩, h⟩ | ⟨hn, h⟩
    · exact Or.inl ⟨v, .child t txt attrib cs c hc hv, h⟩
    · rw [h]
      rcases get?_update (d.set t txt) (attrib.map fun p => (p.1, some p.2)) k with ⟨v, hv, h2⟩ | ⟨hn2, h2⟩
      · rw [List.mem_map] at hv
        obtain ⟨p, hp, e⟩ := hv
        rw [Prod.mk.injEq] at e
        exact Or.inl ⟨v, .attr t txt attrib cs p.2 e.2.symm (by rw [← e.1]; exact hp), h2⟩
      · rw [h2, Dict.get?_set]
        by_cases ht : t = k
        · subst ht
          rw [if_pos rfl]
          exact Or.inl ⟨txt, .tag attrib cs, rfl⟩
        · rw [if_neg ht]
          refine Or.inr ⟨fun v hv => ?_, rfl⟩
          cases hv with
          | tag => exact ht rfl
          | attr _ _ _ _ s hs hm =>
            exact hn2 (some s) (List.mem_map.2 ⟨(k, s), hm, rfl⟩)
          | child _ _ _ _ c hc ho => exact hn v c hc ho
theorem traverseAll_get (d : Xmp) (k : String) (xs : List Xml) :
    (∃ v, (∃ c ∈ xs, Occurs k v c) ∧ Dict.get? (traverseAll d xs) k = some v) ∨
      ((∀ v, ∀ c ∈ xs, ¬ Occurs k v c) ∧ Dict.get? (traverseAll d xs) k = Dict.get? d k) := by
  cases xs with
  | nil => exact Or.inr ⟨by simp, by rw [traverseAll]⟩
  | cons x xs =>
    rw [traverseAll]
    rcases traverseAll_get (traverse d x) k xs with ⟨v, ⟨c, hc, hv⟩, h⟩ | ⟨hn, h⟩
    · exact Or.inl ⟨v, ⟨c, by simp [hc], hv⟩, h⟩
    · rw [h]
      rcases traverse_get d k x with ⟨v, hv, h2⟩ | ⟨hn2, h2⟩
      · exact Or.inl ⟨v, ⟨x, by simp, hv⟩, h2⟩
      · refine Or.inr ⟨fun v c hc => ?_, h2⟩
        rcases List.mem_cons.1 hc with rfl | hc
        · exact hn2 v
        · exact hn v c hc
end

/-- C56: an XMP name is found wherever it occurs in the document, as attribute or as element, and when all its occurrences
have the same value that is its value; a name that does not occur is missing. -/
theorem C56_xmp_found (x : Xml) (k : String) :
    ((∀ v, ¬ Occurs k v x) → (flatDict x).get? k = none) ∧
    (∀ v, Occurs k v x → (∀ w, Occurs k w x → w = v) → (flatDict x).get? k = some v) := by
  rcases traverse_get [] k x with ⟨v, hv, h⟩ | ⟨hn, h⟩
  · exact ⟨fun hn => absurd hv (hn v), fun w hw hall => by rw [flatDict, h, hall v hv]⟩
  · exact ⟨fun _ => by rw [flatDict, h]; rfl, fun w hw => absurd hw (hn w)⟩

end

/-! ## Example -/

/-- A parser of digits, for examples. -/
def demoFlt (s : List Char) : Option ℚ :=
  if s.all Char.isDigit && !s.isEmpty then
    some (s.foldl (fun (n : ℚ) c => 10 * n + ((c.toNat - 48 : ℕ) : ℚ)) 0) else none

/-- Parsers for examples. -/
def demoParse : Parse ℚ := ⟨demoFlt, fun s => (demoFlt s).map Rat.num, fun s => (demoFlt s).map Rat.num⟩

/-- An image with EXIF position 33° 30' 36" south, 18° 15' 0" east, 12 below sea level, and a 35 mm focal length. -/
def demoFile : ImFile :=
  { filename := "a.jpg", imSize := (40, 30),
    tags := [("EXIF_GPSLatitude", "(33) (30) (36)".toList), ("EXIF_GPSLatitudeRef", ['S']),
      ("EXIF_GPSLongitude", "(18) (15) (0)".toList), ("EXIF_GPSLongitudeRef", ['E']), ("EXIF_GPSAltitude", "(12)".toList),
      ("EXIF_GPSAltitudeRef", ['1']), ("EXIF_FocalLengthIn35mmFilm", "(24)".toList), ("EXIF_Make", "ACME".toList)],
    exifTags := [], xmp := none }

example : (match exifInit demoParse (fun s => (String.ofList s).toLower) String.ofList demoFile with
    | .ok e => decide (e.lla = some (-(3351 / 100), 73 / 4, .one (-12)))
    | .error _ => false) = true := by decide +kernel

/-- A DJI document with its position in attributes. -/
def demoXml : Xml :=
  .node "xmpmeta" none [] [.node "RDF" none [] [.node "Description" none [(xmpLat, ['5']), (xmpLon, ['6'])]
    [.node xmpAlt (some ['7']) [] []]]]

example : (match exifInit demoParse (fun s => (String.ofList s).toLower) String.ofList { demoFile with xmp := some demoXml } with
    | .ok e => decide (e.lla = some (5, 6, .one 7))
    | .error _ => false) = true := by decide +kernel

end Verif.Exif
