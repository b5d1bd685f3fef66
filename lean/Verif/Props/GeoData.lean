import Verif.Props.Json
import Verif.Props.Data
import Verif.Model.GeoData
/-! # C58: GeoJSON files, from the text to the loaded data -/
set_option linter.unusedSimpArgs false
namespace Clip
open JsonSpec DataSpec
variable {ν : Type}

/-- The polylines of a document, in order. -/
def docLines (val : Str → ν) (gs : List Geometry) : List (List (ν × ν)) :=
  gs.flatMap fun g => match g with
    | .lineString ps => [ps.map fun p => (val p.1, val p.2)]
    | .multiLineString ls => ls.map (·.map fun p => (val p.1, val p.2))
    | _ => []

/-- The points of a document, in order. -/
def docPoints (val : Str → ν) (gs : List Geometry) : List (ν × ν) :=
  gs.flatMap fun g => match g with
    | .multiPoint ps => ps.map fun p => (val p.1, val p.2)
    | _ => []

theorem geoLinesOf_events [Zero ν] (val : Str → ν) (gs : List Geometry) :
    geoLinesOf (gs.map (·.event val)) = docLines val gs := by
  unfold geoLinesOf docLines
  rw [List.flatMap_map]
  apply List.flatMap_congr
  intro g _
  cases g <;> simp [Geometry.event, posV3, Function.comp_def]

theorem geoPointsOf_events [Zero ν] (val : Str → ν) (gs : List Geometry) :
    geoPointsOf (gs.map (·.event val)) = docPoints val gs := by
  unfold geoPointsOf docPoints
  rw [List.flatMap_map]
  apply List.flatMap_congr
  intro g _
  cases g <;> simp [Geometry.event, posV3, Function.comp_def]

mutual
theorem geometries_nonEmpty (d : Geo) (h : d.Ok) : ∀ g ∈ d.geometries, g.NonEmpty := by
  match d with
  | .geometry _ _ _ _ g => intro g' hg; simp only [Geo.geometries, List.mem_singleton] at hg; subst hg; exact h.2.2.2
  | .feature _ _ _ _ g => exact geometries_nonEmpty g h.2.2.2
  | .collection _ _ _ _ gs => exact geometriesL_nonEmpty gs h.2.2.2
theorem geometriesL_nonEmpty (ds : GeoList) (h : ds.Ok) : ∀ g ∈ ds.geometries, g.NonEmpty := by
  match ds with
  | .nil => intro g hg; simp [GeoList.geometries] at hg
  | .cons d ds =>
    intro g hg
    simp only [GeoList.geometries, List.mem_append] at hg
    rcases hg with hg | hg
    · exact geometries_nonEmpty d h.1 g hg
    · exact geometriesL_nonEmpty ds h.2 g hg
end

theorem points_holds (ps : List (ν × ν)) : ∀ (x y : DataBuffer ν) (a b : List (ν ⊕ Str)), Holds x a → Holds y b →
    Holds (ps.foldl onPoint (x, y)).1 (a ++ ps.map fun v => .inl v.1) ∧
    Holds (ps.foldl onPoint (x, y)).2 (b ++ ps.map fun v => .inl v.2) := by
  induction ps with
  | nil => intro x y a b hx hy; exact ⟨by simpa using hx, by simpa using hy⟩
  | cons p ps ih =>
    intro x y a b hx hy
    have := ih _ _ _ _ (holds_add hx (.inl p.1)) (holds_add hy (.inl p.2))
    simpa [addValue, onPoint] using this

/-- C58: loading a GeoJSON file of polylines.  Whatever the layout of the file, its loaded coordinates are those of all
its lines in order, and cutting them at the recorded positions gives back the lines. -/
theorem C58_geojson_polylines [Zero ν] (readFile : Str → Option Str) (num : Str → Option ν) (val : Str → ν)
    (parse : Str → ν) (path format text : Str) (d : Geo) (hp : path ≠ [])
    (hf : detectFormat path format = "geojson".toList) (hr : readFile path = some text) (hok : d.Ok)
    (hnum : ∀ g ∈ d.geometries, ∀ p ∈ g.positions, num p.1 = some (val p.1) ∧ num p.2 = some (val p.2))
    (ht : Written d.tokens text) (hne : docLines val d.geometries ≠ []) :
    ∃ x y cuts, dataLoadPolylines2 readFile (geoLineReader readFile num) path format none none {} {} []
        = ((x, y, cuts), .ok ()) ∧
      databufToNumbers parse x = some ((docLines val d.geometries).flatten.map (·.1)) ∧
      databufToNumbers parse y = some ((docLines val d.geometries).flatten.map (·.2)) ∧
      pieces cuts (docLines val d.geometries).flatten = docLines val d.geometries := by
  have hg : geoLineReader readFile num path = (docLines val d.geometries, .ok ()) := by
    unfold geoLineReader
    rw [hr]
    simp only
    rw [C39_geojson_document num val d text hok hnum ht]
    simp only [geoLinesOf_events, geoOutcome]
  have hall : ∀ l ∈ docLines val d.geometries, l ≠ [] := by
    intro l hl
    unfold docLines at hl
    obtain ⟨g, hg, hl⟩ := List.mem_flatMap.1 hl
    have hne := geometries_nonEmpty d hok g hg
    cases g with
    | lineString ps => simp only [List.mem_singleton] at hl; subst hl; simpa [Geometry.NonEmpty] using hne
    | multiLineString ls =>
      obtain ⟨q, hq, rfl⟩ := List.mem_map.1 hl
      have := hne.2 q hq
      simpa using this
    | multiPoint ps => simp at hl
    | polygon ps => simp at hl
    | multiPolygon ps => simp at hl
  obtain ⟨x, y, cuts, h1, h2, h3, h4⟩ := C54_geojson_lines readFile (geoLineReader readFile num) path format
    (docLines val d.geometries) hp hf hg parse (by
      cases h : docLines val d.geometries with
      | nil => exact absurd h hne
      | cons l ls =>
        have := hall l (by rw [h]; simp)
        cases l <;> simp_all)
  refine ⟨x, y, cuts, h1, h2, h3, ?_⟩
  rw [h4]
  cases h : docLines val d.geometries with
  | nil => rfl
  | cons l ls =>
    have := hall l (by rw [h]; simp)
    cases l with
    | nil => exact absurd rfl this
    | cons a b => simp

/-- C58: loading a GeoJSON file of multipoints. -/
theorem C58_geojson_points [Zero ν] (readFile : Str → Option Str) (num : Str → Option ν) (val : Str → ν)
    (parse : Str → ν) (path format text : Str) (d : Geo) (hp : path ≠ [])
    (hf : detectFormat path format = "geojson".toList) (hr : readFile path = some text) (hok : d.Ok)
    (hnum : ∀ g ∈ d.geometries, ∀ p ∈ g.positions, num p.1 = some (val p.1) ∧ num p.2 = some (val p.2))
    (ht : Written d.tokens text) :
    ∃ x y, dataLoadPoints2 readFile (geoPointReader readFile num) path format none none {} {} = ((x, y), .ok ()) ∧
      databufToNumbers parse x = some ((docPoints val d.geometries).map (·.1)) ∧
      databufToNumbers parse y = some ((docPoints val d.geometries).map (·.2)) := by
  have hg : geoPointReader readFile num path = (docPoints val d.geometries, .ok ()) := by
    unfold geoPointReader
    rw [hr]
    simp only
    rw [C39_geojson_document num val d text hok hnum ht]
    simp only [geoPointsOf_events, geoOutcome]
  have hpe : path.isEmpty = false := by cases path <;> simp_all
  have h := points_holds (docPoints val d.geometries) ({} : DataBuffer ν) {} [] []
    (holds_empty (ν := ν)) (holds_empty (ν := ν))
  refine ⟨((docPoints val d.geometries).foldl onPoint ({}, {})).1,
    ((docPoints val d.geometries).foldl onPoint ({}, {})).2, ?_, ?_, ?_⟩
  · unfold dataLoadPoints2
    simp only [loadInlineRef, hpe, hf, hg]
    simp [databufAddTexts]
  · exact (holds_numbers h.1 parse).trans (by simp [Function.comp_def])
  · exact (holds_numbers h.2 parse).trans (by simp [Function.comp_def])

end Clip
