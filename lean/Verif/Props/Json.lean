import Verif.Lemmas.Json
/-! # Properties C38, C39, C57: JSON and GeoJSON -/
set_option linter.unusedSimpArgs false
namespace Clip
open JsonSpec
variable {ν : Type}

/-! ## C38: string tokens -/

/-- The meaning of the escapes of a JSON string (`\u` left out). -/
def jsonDecode : Str → Str
  | '\\' :: 'n' :: r => '\n' :: jsonDecode r
  | '\\' :: 't' :: r => '\t' :: jsonDecode r
  | '\\' :: 'r' :: r => '\r' :: jsonDecode r
  | '\\' :: 'b' :: r => '\x08' :: jsonDecode r
  | '\\' :: 'f' :: r => '\x0c' :: jsonDecode r
  | '\\' :: c :: r => c :: jsonDecode r
  | c :: r => c :: jsonDecode r
  | [] => []

/-- C38, the part that holds: a string without escapes is returned as written, and reading stops right behind its
closing quote. -/
theorem C38_json_string_partial (t r : Str) (h : ∀ c ∈ t, c ≠ '\\' ∧ c ≠ '"' ∧ c ≠ '\x00') :
    Returns jsonStringStep (t ++ '"' :: r, []) (some (jsonDecode t, r)) := by
  have hd : jsonDecode t = t ∧ RawString t := by
    induction t with
    | nil => exact ⟨rfl, trivial⟩
    | cons c t ih =>
      obtain ⟨h1, h2, h3⟩ := h c (by simp)
      obtain ⟨i1, i2⟩ := ih (fun x hx => h x (by simp [hx]))
      constructor
      · rw [jsonDecode, i1] <;> (intros; simp_all)
      · rw [RawString]
        · exact ⟨h2, h3, i2⟩
        · intro hc; exact absurd hc h1
        · intro c' r' hc; exact absurd hc h1
  rw [hd.1]
  exact (jsonString_spec _ _).1 _ _ (jsonString_raw t r [] hd.2)

/-- C38 fails: what is returned for a string with escapes is always the raw text, backslashes included. -/
theorem C38_json_escapes_kept (t r : Str) (h : RawString t) :
    Returns jsonStringStep (t ++ '"' :: r, []) (some (t, r)) :=
  (jsonString_spec _ _).1 _ _ (jsonString_raw t r [] h)

example : RawString ['a', '\\', 'n', '\\', '"', 'b'] ∧ jsonDecode ['a', '\\', 'n', '\\', '"', 'b'] = ['a', '\n', '"', 'b'] :=
  ⟨by refine ⟨by decide, by decide, ?_⟩; exact ⟨by decide, by decide, trivial⟩, rfl⟩

/-- C38 fails: a string that is not closed before the end of the input is no error, the parser never returns. -/
theorem C38_json_unterminated_loops (t : Str) (h : RawString t) : Diverges jsonStringStep (t, []) := by
  have : ∀ acc, jsonString t acc = .loops := by
    fun_induction RawString t with
    | case1 => intro acc; rfl
    | case2 => exact absurd h (by simp)
    | case3 c t ih => intro acc; rw [jsonString]; exact ih h _
    | case4 c t h1 h2 ih =>
      intro acc
      obtain ⟨a, b, hr⟩ := h
      have hb : c ≠ '\\' := by
        rintro rfl
        cases t with
        | nil => exact h1 rfl rfl
        | cons a b => exact h2 a b rfl rfl
      rw [jsonString, if_neg a, if_neg b, ih hr]
      · intro h; exact absurd h hb
      · intro c' r' h; exact absurd h hb
  exact (jsonString_spec _ _).2.2 (this [])

/-! ## C57: tokens and skipping -/

/-- C57: every way of writing a sequence of tokens (white space, separators) is read as these tokens, in this order,
and the end of the input is then an error. -/
theorem C57_json_tokens {ts : List JTok} {s : Str} (h : Written ts s) : lex s = ⟨ts.map .tok, .error⟩ :=
  lex_written h

/-- C57: skipping consumes exactly one complete value, whatever follows it. -/
theorem C57_json_skip (v : Json) (ts : List JTok) (s : Str) (h : Written (v.tokens ++ ts) s) :
    jsonSkip (lex s).fin ((lex s).items.length + 1) (lex s).items = .ok () (ts.map .tok) := by
  rw [lex_written h]
  simp only [List.map_append]
  exact skip_value _ v _ _ (by omega)

/-- C57: skipping always comes to an end unless a string is not closed (see C38): the number of steps is bounded by the
number of tokens. -/
theorem C57_skip_terminates (fin : JEnd) (s : List JItem) (n : Nat) (h : s.length < n) :
    jsonSkip fin n s ≠ .outOfFuel ∧ ∀ r, jsonSkip fin n s = .ok () r → r.length ≤ s.length := by
  have := skipValue_fine fin n s h
  constructor
  · intro e; rw [e] at this; exact this
  · intro r e; rw [e] at this; exact this

/-- `{"a": [1, -2.5e3 ], "b": {}, "c": "x\"y"} null` -/
example : Written ((Json.obj (.cons ['a'] (.arr (.cons (.num ['1']) (.cons (.num ['-', '2', '.', '5', 'e', '3']) .nil)))
      (.cons ['b'] (.obj .nil) (.cons ['c'] (.str ['x', '\\', '"', 'y']) .nil)))).tokens ++ [.null])
    ['{', '"', 'a', '"', ':', ' ', '[', '1', ',', ' ', '-', '2', '.', '5', 'e', '3', ' ', ']', ',', '\n',
     '"', 'b', '"', ':', '{', '}', ',', '"', 'c', '"', ':', '"', 'x', '\\', '"', 'y', '"', '}', 'n', 'u', 'l', 'l'] := by
  have num : ∀ w : Str, w ≠ [] → (∀ c ∈ w, c.isDigit = true ∨ c = '-' ∨ c = '.' ∨ c = 'e') →
      (∃ c r, w = c :: r ∧ (c = '-' ∨ c.isDigit = true)) → NumberText w := by
    rintro w - h ⟨c, r, rfl, hs⟩
    refine ⟨⟨c, r, rfl, hs⟩, fun c hc => ?_⟩
    rcases h c hc with h | h | h | h <;> simp [numberChar, h]
  refine .other (t := .objBegin) (by simp) (by simp) ?_
  refine .str (t := ['a']) ⟨by decide, by decide, trivial⟩ (.sep (by simp) (.sep (by simp) ?_))
  refine .other (t := .arrBegin) (by simp) (by simp) ?_
  refine .num (w := ['1']) (num _ (by simp) (by decide) ⟨_, _, rfl, by decide⟩)
    ⟨',', _, rfl, by simp [numberChar] <;> decide, by decide⟩ (.sep (by simp) (.sep (by simp) ?_))
  refine .num (w := ['-', '2', '.', '5', 'e', '3']) (num _ (by simp) (by decide) ⟨_, _, rfl, by decide⟩)
    ⟨']', _, rfl, by simp [numberChar] <;> decide, by decide⟩ (.sep (by simp) ?_)
  refine .other (t := .arrEnd) (by simp) (by simp) (.sep (by simp) (.sep (by simp) ?_))
  refine .str (t := ['b']) ⟨by decide, by decide, trivial⟩ (.sep (by simp) ?_)
  refine .other (t := .objBegin) (by simp) (by simp) ?_
  refine .other (t := .objEnd) (by simp) (by simp) (.sep (by simp) ?_)
  refine .str (t := ['c']) ⟨by decide, by decide, trivial⟩ (.sep (by simp) ?_)
  refine .str (t := ['x', '\\', '"', 'y']) ⟨by decide, by decide, by decide, by decide, trivial⟩ ?_
  refine .other (t := .objEnd) (by simp) (by simp) ?_
  exact .other (t := .null) (by simp) (by simp) .nil

/-! ## C39: GeoJSON -/

/-- C39: a GeoJSON document made of feature collections, features and (multi) lines, (multi) polygons and
multipoints in two dimensions, with any foreign members, any member order and any layout, is read without error, and
the reader receives exactly its geometries, in document order, with all their coordinates. -/
theorem C39_geojson_document [Zero ν] (num : Str → Option ν) (val : Str → ν) (d : Geo) (text : Str) (hok : d.Ok)
    (hnum : ∀ g ∈ d.geometries, ∀ p ∈ g.positions, num p.1 = some (val p.1) ∧ num p.2 = some (val p.2))
    (ht : Written d.tokens text) :
    geoRead num text = (d.geometries.map (·.event val), .ok) := by
  obtain ⟨body, hb, hd⟩ := geoObject_doc .error num val d hok hnum
  have := hd (body.length + 1) [] (by simp)
  unfold geoRead
  rw [lex_written ht, hb]
  simp only [List.map_cons, List.length_cons, List.length_map, geoObject, jsonExpect, jsonNext, if_true]
  simp only [List.append_nil] at this
  rw [this]

/-- C39: every text is read in a number of steps bounded by its number of tokens, unless a string is not closed. -/
theorem C39_geojson_terminates [Zero ν] (num : Str → Option ν) (text : Str) :
    (geoRead num text).2 ≠ .outOfFuel := by
  have := (geo_fine (lex text).fin num ((lex text).items.length + 1)).2.2.2 (lex text).items (by omega)
  unfold geoRead
  simp only
  cases h : geoObject (lex text).fin num ((lex text).items.length + 1) (lex text).items with
  | mk ev res =>
    rw [h] at this
    cases res <;> simp [Fine] at this ⊢

/-- The tokens of `{"type": t, "coordinates": c}`. -/
def simpleObject (t : Str) (c : List JTok) : List JTok :=
  [.objBegin, .str "type".toList, .str t, .str "coordinates".toList] ++ c ++ [.objEnd]

theorem geoRead_simple [Zero ν] (num : Str → Option ν) (t : Str) (c : List JTok) (cs : List (GeoCoord ν)) (text : Str)
    (ht : Written (simpleObject t c) text)
    (hc : ∀ rest, geoReadCoords .error num [] (c.map .tok ++ rest) = .ok cs rest) :
    geoRead num text = match geoFinish t cs with
      | .ok ev => (ev, .ok)
      | .error _ => ([], .error)
      | _ => ([], .undefined) := by
  unfold geoRead
  rw [lex_written ht]
  have e : ((simpleObject t c).map JItem.tok).length + 1 = c.length + 2 + 1 + 1 + 1 + 1 := by
    simp [simpleObject]
  simp only
  rw [e]
  simp only [simpleObject, List.map_append, List.map_cons, List.map_nil, List.cons_append, List.nil_append]
  rw [geoObject]
  simp only [jsonExpect, jsonNext, if_true]
  rw [geoObjectData]
  simp only [jsonNext, if_true, jsonReadString]
  rw [geoObjectData]
  simp only [jsonNext]
  rw [if_neg (by decide), if_neg (by decide), if_neg (by decide), if_pos trivial, hc]
  simp only
  rw [geoObjectData]
  simp only [jsonNext]
  cases geoFinish t cs <;> rfl

/-- C39 fails: every two-dimensional Point makes the reader access a coordinate that does not exist. -/
theorem C39_point_undefined [Zero ν] (num : Str → Option ν) (x y : ν) (a b text : Str) (ha : num a = some x)
    (hb : num b = some y)
    (ht : Written (simpleObject "Point".toList [.arrBegin, .num a, .num b, .arrEnd]) text) :
    geoRead num text = ([], .undefined) := by
  rw [geoRead_simple num _ _ [(x, 0), (y, 0)] text ht (by
    intro rest; simp [geoReadCoords, jsonExpect, jsonNext, geoCoordsLoop, ha, hb])]
  simp [geoFinish, geoPoint]

/-- C39 fails: the third coordinate of a three-dimensional Point is replaced by zero. -/
theorem C39_point_3d [Zero ν] (num : Str → Option ν) (x y z : ν) (a b c text : Str) (ha : num a = some x)
    (hb : num b = some y) (hc : num c = some z)
    (ht : Written (simpleObject "Point".toList [.arrBegin, .num a, .num b, .num c, .arrEnd]) text) :
    geoRead num text = ([.points [⟨x, y, 0⟩]], .ok) := by
  rw [geoRead_simple num _ _ [(x, 0), (y, 0), (z, 0)] text ht (by
    intro rest; simp [geoReadCoords, jsonExpect, jsonNext, geoCoordsLoop, ha, hb, hc])]
  simp [geoFinish, geoPoint]

/-- C39, wrong shapes of lines: a LineString whose positions have any numbers of coordinates is read without error
exactly if every position has two coordinates (or none, then it is ignored) and at least one has two. -/
theorem C39_line_shape [Zero ν] (num : Str → Option ν) (val : Str → ν) (ps : List (List Str)) (text : Str)
    (hnum : ∀ p ∈ ps, ∀ w ∈ p, num w = some (val w))
    (ht : Written (simpleObject "LineString".toList
      (listTokens (fun ws => .arrBegin :: (ws.map JTok.num ++ [.arrEnd])) ps)) text) :
    geoRead num text =
      if (∀ p ∈ ps, p.length = 2 ∨ p.length = 0) ∧ ∃ p ∈ ps, p.length = 2 then
        ([.lines [(ps.filter (·.length = 2)).map fun p => ⟨val (p.headD []), val (p.tail.headD []), 0⟩]], .ok)
      else ([], .error) := by
  rw [geoRead_simple num _ _ (seqCoords (numsCoords val) 0 0 ps) text ht (by
    intro rest
    have := readCoords_list (reads_nums .error num val) [] ps hnum rest
    simpa using this)]
  have e : ∀ c : List (GeoCoord ν), geoFinish "LineString".toList c = geoLineString c := geoFinish_LineString
  rw [e, geoLineString, lineLoop_nums]
  by_cases h1 : ∀ p ∈ ps, p.length = 2 ∨ p.length = 0
  · rw [if_pos h1]
    by_cases h2 : ∃ p ∈ ps, p.length = 2
    · rw [if_pos ⟨h1, h2⟩]
      obtain ⟨p, hp, hl⟩ := h2
      have : p ∈ ps.filter (·.length = 2) := List.mem_filter.2 ⟨hp, by simpa using hl⟩
      cases hf : ps.filter (·.length = 2) with
      | nil => rw [hf] at this; cases this
      | cons q qs => simp
    · rw [if_neg (fun h => h2 h.2)]
      have : ps.filter (·.length = 2) = [] := by
        rw [List.filter_eq_nil_iff]
        intro p hp hl
        exact h2 ⟨p, hp, by simpa using hl⟩
      rw [this]; simp
  · rw [if_neg h1, if_neg (fun h => h1 h.1)]

/-- C39 fails: a Polygon with four-dimensional positions is accepted with wrong coordinates. -/
theorem C39_polygon_4d_corrupt [Zero ν] (num : Str → Option ν) (val : Str → ν) (a b c d text : Str)
    (hnum : ∀ w, w = a ∨ w = b ∨ w = c ∨ w = d → num w = some (val w))
    (ht : Written (simpleObject "Polygon".toList
      [.arrBegin, .arrBegin, .arrBegin, .num a, .num b, .num c, .num d, .arrEnd, .arrEnd, .arrEnd]) text) :
    geoRead num text = ([.polygons [([⟨val a, val c, val c⟩, ⟨val c, val d, 0⟩], [])]], .ok) := by
  rw [geoRead_simple num _ _ [(val a, 0), (val b, 2), (val c, 2), (val d, 2)] text ht (by
    intro rest; simp [geoReadCoords, jsonExpect, jsonNext, geoCoordsLoop, hnum])]
  rw [geoFinish_Polygon]
  simp [geoPolygon, geoPolygonLoop, nextLevelIs, pushLast]

/-- C39 fails: a MultiPolygon whose first ring is empty accesses a polygon that does not exist. -/
theorem C39_multipolygon_empty_ring_undefined [Zero ν] (num : Str → Option ν) (x y : ν) (a b text : Str)
    (ha : num a = some x) (hb : num b = some y)
    (ht : Written (simpleObject "MultiPolygon".toList
      [.arrBegin, .arrBegin, .arrBegin, .arrEnd, .arrBegin, .arrBegin, .num a, .num b, .arrEnd, .arrEnd, .arrEnd, .arrEnd])
      text) :
    geoRead num text = ([], .undefined) := by
  rw [geoRead_simple num _ _ [(x, 1), (y, 3)] text ht (by
    intro rest; simp [geoReadCoords, jsonExpect, jsonNext, geoCoordsLoop, ha, hb])]
  rw [geoFinish_MultiPolygon]
  simp [geoMultiPolygon, geoMultiPolygonLoop]

/-- C39 fails: the members of a GeometryCollection are dropped without an error, whatever they are. -/
theorem C39_geometry_collection_dropped [Zero ν] (num : Str → Option ν) (gs : Array_) (text : Str)
    (ht : Written ([.objBegin, .str "type".toList, .str "GeometryCollection".toList] ++
      (Members.cons "geometries".toList (.arr gs) .nil).tokens ++ [.objEnd]) text) :
    geoRead num text = ([], .ok) := by
  have h := (does_type .error num "GeometryCollection".toList).append
    (does_foreign .error num (.cons "geometries".toList (.arr gs) .nil) ⟨by decide, trivial⟩)
  have h := does_finish h (ev' := []) (by simp [geoFinish])
    ((Members.cons "geometries".toList (.arr gs) .nil).tokens.length + 4) [] (by simp)
  unfold geoRead
  rw [lex_written ht]
  simp only [List.map_append, List.map_cons, List.map_nil, List.length_append, List.length_cons,
    List.length_map, List.length_nil, List.cons_append, List.nil_append, List.append_nil] at h ⊢
  rw [geoObject]
  simp only [jsonExpect, jsonNext, if_true]
  rw [h]

/-- C39 fails: a feature without a geometry (`null`, allowed by RFC 7946) is refused. -/
theorem C39_null_geometry_refused [Zero ν] (num : Str → Option ν) (text : Str)
    (ht : Written [.objBegin, .str "type".toList, .str "Feature".toList, .str "geometry".toList, .null, .objEnd] text) :
    geoRead num text = ([], .error) := by
  unfold geoRead
  rw [lex_written ht]
  simp [geoObject, jsonExpect, jsonNext, geoObjectData, jsonReadString]

/-- A document to which `C39_geojson_document` applies. -/
example : (Geo.collection true .nil (.cons "bbox".toList (.arr .nil) .nil) .nil
    (.cons (.feature false .nil .nil (.cons "properties".toList .null .nil)
      (.geometry true .nil .nil .nil (.polygon [[(['0'], ['0']), (['1'], ['0']), (['1'], ['1'])], [(['2'], ['3'])]]))) .nil)).Ok := by
  refine ⟨trivial, ⟨by decide, trivial⟩, trivial, ⟨trivial, trivial, ⟨by decide, trivial⟩, trivial, trivial, trivial, by simp, by simp⟩, trivial⟩

end Clip
