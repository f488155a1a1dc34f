import Verif.Readers.Csv
import Verif.Readers.Osfm
import Verif.Exif.Utm

/-!
# C66 for CSV and OpenSfM files: the automatic UTM CRS

`ExifReader` is in `Verif/Exif/Utm.lean`.
-/

set_option autoImplicit false
set_option linter.unusedSectionVars false

namespace Verif.Readers

open Verif.Exif (mapRes mean utmEpsg utmZone mean_bounds zone_unique mapRes_ok mapRes_error C66_hemisphere)
open Verif.ParamIO (Py Key)

section
variable {K : Type} [Field K] [LinearOrder K] [IsStrictOrderedRing K] [FloorRing K]

/-! ## Model -/

/-- orthority/param_io.py:1070-1073: the position of a row. -/
def csvLatLon (parse : String → Option K) (row : Dict String (Option String)) : Res (K × K) :=
  match convertRow parse row with
  | .error e => .error e
  | .ok r => match cell r "latitude", cell r "longitude" with
    | .ok lat, .ok lon => .ok (lat, lon)
    | .error e, _ => .error e
    | _, .error e => .error e

/-- orthority/param_io.py:1061-1076 `CsvReader._find_lla_rpy_crs`: the EPSG code; `rows` are those after the header
row.  The mean of no rows is one number, which cannot be unpacked.  Not modelled: values that are not finite. -/
def csvUtm (parse : String → Option K) (rows : List (Dict String (Option String))) : Res ℤ :=
  match mapRes (csvLatLon parse) rows with
  | .error e => .error e
  | .ok [] => .error .typeError
  | .ok (p :: l) => .ok (utmEpsg (mean ((p :: l).map Prod.fst)) (mean ((p :: l).map Prod.snd)))

/-- orthority/param_io.py:1230-1234 `OsfmReader._find_utm_crs`: the EPSG code, from the root dictionary of a file that
has been validated. -/
def osfmUtm (root : Py K) : Res ℤ := do
  let ref ← root.getItem "reference_lla"
  let lat ← ref.getItem "latitude"
  let lon ← ref.getItem "longitude"
  let _ ← ref.getItem "altitude"
  match lat, lon with
  | .float lat, .float lon => .ok (utmEpsg lat lon)
  | _, _ => .error .typeError

/-! ## Specification -/

/-- The EPSG code of a UTM zone. -/
def zoneEpsg (north : Bool) (z : ℤ) : ℤ := (if north then 32600 else 32700) + z

/-- A position in a UTM zone, with the longitude given in turn `n`. -/
def PosIn (north : Bool) (z n : ℤ) (lat lon : K) : Prop :=
  6 * (z - 1) - 180 ≤ lon + 360 * n ∧ lon + 360 * n < 6 * z - 180 ∧
    (if north then 0 ≤ lat ∧ lat ≤ 90 else -90 ≤ lat ∧ lat < 0)

/-- All values of number fields of the row are numbers. -/
def Numbers (parse : String → Option K) (row : Dict String (Option String)) : Prop :=
  ∀ k v, (k, v) ∈ row → k ∈ floatFields → ∃ s x, v = some s ∧ parse s = some x

/-! ## Theorems -/

theorem utmEpsg_in (north : Bool) (z n : ℤ) (h1 : 1 ≤ z) (h2 : z ≤ 60) (lat lon : K)
    (hlon : 6 * (z - 1) - 180 ≤ lon + 360 * n ∧ lon + 360 * n < 6 * z - 180)
    (hlat : if north then 0 ≤ lat else lat < 0) : utmEpsg lat lon = zoneEpsg north z := by
  have hz := zone_unique lon z h1 h2 ⟨n, hlon⟩
  cases north
  · simp only [Bool.false_eq_true, if_false] at hlat
    rw [(C66_hemisphere _ _).2 hlat, ← hz]
    rfl
  · simp only [if_true] at hlat
    rw [(C66_hemisphere _ _).1 hlat, ← hz]
    rfl

theorem mean_in (north : Bool) (z n : ℤ) (h1 : 1 ≤ z) (h2 : z ≤ 60) (l : List (K × K)) (hne : l ≠ [])
    (h : ∀ p ∈ l, PosIn north z n p.1 p.2) :
    utmEpsg (mean (l.map Prod.fst)) (mean (l.map Prod.snd)) = zoneEpsg north z := by
  have hlon := mean_bounds (l.map Prod.snd) (6 * (z - 1) - 180 - 360 * n) (6 * z - 180 - 360 * n) (by
    intro x hx
    obtain ⟨p, hp, rfl⟩ := List.mem_map.1 hx
    obtain ⟨b1, b2, -⟩ := h p hp
    exact ⟨by linarith, by linarith⟩) (by simpa using hne)
  refine utmEpsg_in north z n h1 h2 _ _ ⟨by linarith [hlon.1], by linarith [hlon.2]⟩ ?_
  cases north
  · simp only [Bool.false_eq_true, if_false]
    refine (mean_bounds (l.map Prod.fst) (-91) 0 ?_ (by simpa using hne)).2
    intro x hx
    obtain ⟨p, hp, rfl⟩ := List.mem_map.1 hx
    have b3 := (h p hp).2.2
    simp only [Bool.false_eq_true, if_false] at b3
    exact ⟨by linarith [b3.1], b3.2⟩
  · simp only [if_true]
    refine (mean_bounds (l.map Prod.fst) 0 91 ?_ (by simpa using hne)).1
    intro x hx
    obtain ⟨p, hp, rfl⟩ := List.mem_map.1 hx
    have b3 := (h p hp).2.2
    simp only [if_true] at b3
    exact ⟨b3.1, by linarith [b3.2]⟩

theorem convertRow_numbers {parse : String → Option K} {row : Dict String (Option String)} (h : Numbers parse row) :
    ∃ r, convertRow parse row = .ok r := by
  induction row with
  | nil => exact ⟨_, rfl⟩
  | cons p row ih =>
    obtain ⟨k, v⟩ := p
    obtain ⟨r, hr⟩ := ih fun k' v' hm hk => h k' v' (List.mem_cons_of_mem _ hm) hk
    unfold convertRow
    rw [hr]
    split_ifs with hk
    · have : ∃ c, convertCell parse k v = .ok c := by
        unfold convertCell
        by_cases hf : k ∈ floatFields
        · obtain ⟨s, x, rfl, hx⟩ := h k v (by simp) hf
          exact ⟨.flt x, by simp [hf, hx]⟩
        · rw [if_neg hf]
          by_cases hn : k = "filename"
          · exact ⟨_, if_pos hn⟩
          · rw [if_neg hn]
            cases v with
            | none => exact ⟨_, rfl⟩
            | some s => exact ⟨_, rfl⟩
      obtain ⟨c, hc⟩ := this
      exact ⟨(k, c) :: r, by rw [hc]⟩
    · exact ⟨r, rfl⟩

theorem csvLatLon_ok {parse : String → Option K} {row : Dict String (Option String)} (h : Numbers parse row)
    (hlat : "latitude" ∈ row.map Prod.fst) (hlon : "longitude" ∈ row.map Prod.fst) :
    ∃ lat lon, Num parse row "latitude" lat ∧ Num parse row "longitude" lon ∧ csvLatLon parse row = .ok (lat, lon) := by
  obtain ⟨r, hr⟩ := convertRow_numbers h
  obtain ⟨s1, x, a1, a2, a3⟩ := convertRow_get hr (k := "latitude") (by decide) hlat
  obtain ⟨s2, y, b1, b2, b3⟩ := convertRow_get hr (k := "longitude") (by decide) hlon
  exact ⟨x, y, ⟨s1, a1, a2⟩, ⟨s2, b1, b2⟩, by simp [csvLatLon, hr, cell, a3, b3]⟩

theorem num_unique {parse : String → Option K} {row : Dict String (Option String)} {k : String} {x y : K}
    (hx : Num parse row k x) (hy : Num parse row k y) : x = y := by
  obtain ⟨s, h1, h2⟩ := hx
  obtain ⟨t, h3, h4⟩ := hy
  rw [h1] at h3
  simp only [Option.some.injEq] at h3
  subst h3
  rw [h2] at h4
  exact Option.some.inj h4

/-- C66, the part that holds for CSV files: a file of positions in latitude, longitude and altitude with roll, pitch and yaw
that is read without a user CRS gets the UTM zone and hemisphere that all positions are in, whatever `.prj` file there is.
Missing: positions on both sides of the 180° meridian (`C66_csv_antimeridian_fails`), files without rows
(`C66_csv_empty_fails`). -/
theorem C66_csv_partial (parse : String → Option K) (norm : String → String) (user header : Option (List String))
    (fields : List String) (hf : parseFile norm user header = .ok (fields, .llaRpy)) (prj : Prj ℤ)
    (rows : List (Dict String (Option String))) (hne : rows ≠ []) (north : Bool) (z n : ℤ) (h1 : 1 ≤ z) (h2 : z ≤ 60)
    (hnum : ∀ row ∈ rows, Numbers parse row)
    (hpos : ∀ row ∈ rows, ∃ lat lon, Num parse row "latitude" lat ∧ Num parse row "longitude" lon ∧ PosIn north z n lat lon) :
    csvInit norm user header none prj (csvUtm parse rows) = .ok (fields, .llaRpy, some (zoneEpsg north z)) := by
  have hmem : ∀ {k : String} {row : Dict String (Option String)} {x : K}, Num parse row k x → k ∈ row.map Prod.fst := by
    rintro k row x ⟨s, hs, -⟩
    by_contra hn
    rw [← Dict.get?_none] at hn
    rw [hn] at hs
    cases hs
  have hrow : ∀ row ∈ rows, ∃ p, csvLatLon parse row = .ok p ∧ PosIn north z n p.1 p.2 := by
    intro row hr
    obtain ⟨lat, lon, a, b, c⟩ := hpos row hr
    obtain ⟨lat', lon', a', b', e⟩ := csvLatLon_ok (hnum row hr) (hmem a) (hmem b)
    rw [num_unique a' a, num_unique b' b] at e
    exact ⟨(lat, lon), e, c⟩
  have hall : ∃ l, mapRes (csvLatLon parse) rows = .ok l ∧ l.length = rows.length ∧ ∀ p ∈ l, PosIn north z n p.1 p.2 := by
    clear hne hnum hpos
    induction rows with
    | nil => exact ⟨[], rfl, rfl, by simp⟩
    | cons row rows ih =>
      obtain ⟨p, hp, hq⟩ := hrow row (by simp)
      obtain ⟨l, hl, hlen, hall⟩ := ih fun row' h' => hrow row' (by simp [h'])
      refine ⟨p :: l, by rw [mapRes, hp, hl]; rfl, by simp [hlen], ?_⟩
      intro q hq'
      rcases List.mem_cons.1 hq' with rfl | hq'
      · exact hq
      · exact hall q hq'
  obtain ⟨l, hl, hlen, hin⟩ := hall
  have hl0 : l ≠ [] := by
    rintro rfl
    exact hne (List.length_eq_zero_iff.1 hlen.symm)
  have hu : csvUtm parse rows = .ok (zoneEpsg north z) := by
    unfold csvUtm
    rw [hl]
    cases l with
    | nil => exact absurd rfl hl0
    | cons p l => exact congrArg Except.ok (mean_in north z n h1 h2 _ hl0 hin)
  unfold csvInit
  rw [hf, hu]
  rfl

/-- C66 is false of CSV files without rows: `TypeError`. -/
theorem C66_csv_empty_fails (parse : String → Option K) (norm : String → String) (user header : Option (List String))
    (fields : List String) (hf : parseFile norm user header = .ok (fields, .llaRpy)) (prj : Prj ℤ) :
    csvInit norm user header none prj (csvUtm parse []) = .error .typeError := by
  unfold csvInit
  rw [hf]
  rfl

/-- C66: a row with a latitude or longitude that is not a number is an error. -/
theorem C66_csv_bad_row (parse : String → Option K) (norm : String → String) (user header : Option (List String))
    (fields : List String) (hf : parseFile norm user header = .ok (fields, .llaRpy)) (prj : Prj ℤ)
    (rows : List (Dict String (Option String))) (row : Dict String (Option String)) (hr : row ∈ rows)
    (hbad : (∀ x, ¬ Num parse row "latitude" x) ∨ ∀ x, ¬ Num parse row "longitude" x) :
    ∃ e, csvInit norm user header none prj (csvUtm parse rows) = .error e := by
  have hrow : ∃ e, csvLatLon parse row = .error e := by
    unfold csvLatLon
    cases hc : convertRow parse row with
    | error e => exact ⟨e, rfl⟩
    | ok r =>
      have hget : ∀ k, k ∈ floatFields → (∀ x, ¬ Num parse row k x) → ∃ e, cell r k = .error e := by
        intro k hk hn
        unfold cell
        by_cases hm : k ∈ row.map Prod.fst
        · obtain ⟨s, x, a, b, -⟩ := convertRow_get hc hk hm
          exact absurd ⟨s, a, b⟩ (hn x)
        · have : ∀ (row : Dict String (Option String)) (r : Dict String (Cell K)), convertRow parse row = .ok r →
              k ∉ row.map Prod.fst → Dict.get? r k = none := by
            intro row
            induction row with
            | nil => intro r h _; simp only [convertRow, Except.ok.injEq] at h; rw [← h]; rfl
            | cons p row ih =>
              obtain ⟨k', v⟩ := p
              intro r h hm
              rw [List.map_cons, List.mem_cons, not_or] at hm
              unfold convertRow at h
              split_ifs at h
              · cases h1 : convertCell parse k' v with
                | error e => rw [h1] at h; cases h
                | ok c =>
                  rw [h1] at h
                  cases h2 : convertRow parse row with
                  | error e => rw [h2] at h; cases h
                  | ok r' =>
                    rw [h2] at h
                    cases h
                    rw [Dict.get?_cons, if_neg (Ne.symm hm.1)]
                    exact ih r' h2 hm.2
              · exact ih r h hm.2
          rw [this row r hc hm]
          exact ⟨_, rfl⟩
      rcases hbad with h | h
      · obtain ⟨e, he⟩ := hget "latitude" (by decide) h
        simp only [he]
        exact ⟨e, rfl⟩
      · obtain ⟨e, he⟩ := hget "longitude" (by decide) h
        simp only [he]
        cases cell r "latitude" with
        | error e' => exact ⟨e', rfl⟩
        | ok x => exact ⟨e, rfl⟩
  have hall : ∃ e, mapRes (csvLatLon parse) rows = .error e := by
    induction rows with
    | nil => simp at hr
    | cons q rows ih =>
      rw [mapRes]
      cases hq : csvLatLon parse q with
      | error e => exact ⟨e, rfl⟩
      | ok p =>
        rcases List.mem_cons.1 hr with rfl | hr
        · obtain ⟨e, he⟩ := hrow
          rw [he] at hq
          cases hq
        · obtain ⟨e, he⟩ := ih hr
          rw [he]
          exact ⟨e, rfl⟩
  obtain ⟨e, he⟩ := hall
  refine ⟨e, ?_⟩
  unfold csvInit csvUtm
  rw [hf, he]
  rfl

/-- C66: the CRS of an OpenSfM reconstruction is the UTM zone and hemisphere of its reference position. -/
theorem C66_osfm (root ref : List (Key × Py K)) (lat lon alt : K)
    (hroot : Dict.get? root (.str "reference_lla") = some (.dict ref))
    (hlat : Dict.get? ref (.str "latitude") = some (.float lat))
    (hlon : Dict.get? ref (.str "longitude") = some (.float lon))
    (halt : Dict.get? ref (.str "altitude") = some (.float alt))
    (north : Bool) (z n : ℤ) (h1 : 1 ≤ z) (h2 : z ≤ 60) (h : PosIn north z n lat lon) :
    osfmUtm (.dict root) = .ok (zoneEpsg north z) := by
  obtain ⟨b1, b2, b3⟩ := h
  unfold osfmUtm
  simp only [Py.getItem, hroot, hlat, hlon, halt, Res.ok_bind]
  rw [utmEpsg_in north z n h1 h2 lat lon ⟨b1, b2⟩]
  cases north
  · simp only [Bool.false_eq_true, if_false] at b3 ⊢; exact b3.2
  · simp only [if_true] at b3 ⊢; exact b3.1

end

/-! ## Files -/

/-- Texts of the numbers in the files below. -/
def demoParse (s : String) : Option ℚ :=
  if s = "-17" then some (-17) else if s = "179.9" then some (1799 / 10) else if s = "-179.9" then some (-1799 / 10)
  else if s = "0" then some 0 else none

def demoFields : List String := ["filename", "latitude", "longitude", "altitude", "roll", "pitch", "yaw"]

def demoRow (f lat lon : String) : Dict String (Option String) := mkRow demoFields [f, lat, lon, "0", "0", "0", "0"]

/-- C66 is false of CSV files with positions on both sides of the 180° meridian: images a fifth of a degree apart get a
CRS on the other side of the earth. -/
theorem C66_csv_antimeridian_fails :
    csvInit id none (some demoFields) none .unknown
        (csvUtm demoParse [demoRow "a.tif" "-17" "179.9", demoRow "b.tif" "-17" "-179.9"]) =
      .ok (demoFields, .llaRpy, some 32731) ∧
    utmEpsg (-17 : ℚ) (1799 / 10) = 32760 ∧ utmEpsg (-17 : ℚ) (-1799 / 10) = 32701 := by decide +kernel

example : csvInit id none (some demoFields) none .unknown (csvUtm demoParse [demoRow "a.tif" "-17" "179.9"]) =
    .ok (demoFields, .llaRpy, some (zoneEpsg false 60)) :=
  C66_csv_partial demoParse id none (some demoFields) demoFields (by decide +kernel) .unknown _ (by simp) false 60 0
    (by norm_num) (by norm_num)
    (by
      intro row hrow
      simp only [List.mem_cons, List.not_mem_nil, or_false] at hrow
      subst hrow
      have : demoRow "a.tif" "-17" "179.9" = [("filename", some "a.tif"), ("latitude", some "-17"),
        ("longitude", some "179.9"), ("altitude", some "0"), ("roll", some "0"), ("pitch", some "0"),
        ("yaw", some "0")] := by decide +kernel
      rw [this]
      intro k v hm hk
      simp only [List.mem_cons, Prod.mk.injEq, List.not_mem_nil, or_false] at hm
      rcases hm with ⟨rfl, rfl⟩ | ⟨rfl, rfl⟩ | ⟨rfl, rfl⟩ | ⟨rfl, rfl⟩ | ⟨rfl, rfl⟩ | ⟨rfl, rfl⟩ | ⟨rfl, rfl⟩
      · exact absurd hk (by decide)
      all_goals exact ⟨_, _, rfl, rfl⟩)
    (by
      intro row hrow
      simp only [List.mem_cons, List.not_mem_nil, or_false] at hrow
      subst hrow
      exact ⟨-17, 1799 / 10, ⟨"-17", by decide +kernel, rfl⟩, ⟨"179.9", by decide +kernel, rfl⟩, by norm_num [PosIn]⟩)

example : osfmUtm (.dict [(.str "reference_lla", .dict [(.str "latitude", .float (-33 : ℚ)),
    (.str "longitude", .float 18), (.str "altitude", .float 0)])]) = .ok (zoneEpsg false 34) :=
  C66_osfm _ _ (-33) 18 0 rfl rfl rfl rfl false 34 0 (by norm_num) (by norm_num) (by norm_num [PosIn])

end Verif.Readers
