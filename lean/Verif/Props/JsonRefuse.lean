import Verif.Props.Json
import Verif.Props.GeoData
/-!
# C39, C57, C58: what is refused
-/
set_option linter.unusedSimpArgs false
namespace Clip
open JsonSpec
variable {ν : Type}

/-! ## C57: skipping consumes exactly one value -/

theorem skip_sound (fin : JEnd) (n : Nat) :
    (∀ s r, jsonSkipArray fin n s = .ok () r → ∃ a : Array_, s = a.tokens.map .tok ++ .tok .arrEnd :: r) ∧
    (∀ s r, jsonSkipObject fin n s = .ok () r → ∃ o : Members, s = o.tokens.map .tok ++ .tok .objEnd :: r) := by
  induction n with
  | zero => exact ⟨fun s r h => by simp [jsonSkipArray] at h, fun s r h => by simp [jsonSkipObject] at h⟩
  | succ n ih =>
    obtain ⟨iha, iho⟩ := ih
    constructor
    · intro s r h
      rw [jsonSkipArray] at h
      rcases next_fine fin s with ⟨t, q, e, rfl⟩ | ⟨q, e, -⟩ | e
      · rw [e] at h
        have scalar : ∀ v : Json, v.tokens = [t] → jsonSkipArray fin n q = .ok () r →
            ∃ a : Array_, JItem.tok t :: q = a.tokens.map .tok ++ .tok .arrEnd :: r := by
          intro v hv h
          obtain ⟨a, rfl⟩ := iha q r h
          exact ⟨.cons v a, by simp [Array_.tokens, hv]⟩
        cases t with
        | arrBegin =>
          simp only at h
          cases hq : jsonSkipArray fin n q with
          | ok u q' =>
            rw [hq] at h
            obtain ⟨a, rfl⟩ := iha q q' hq
            obtain ⟨b, rfl⟩ := iha q' r h
            exact ⟨.cons (.arr a) b, by simp [Array_.tokens, Json.tokens]⟩
          | _ => rw [hq] at h; cases h
        | objBegin =>
          simp only at h
          cases hq : jsonSkipObject fin n q with
          | ok u q' =>
            rw [hq] at h
            obtain ⟨a, rfl⟩ := iho q q' hq
            obtain ⟨b, rfl⟩ := iha q' r h
            exact ⟨.cons (.obj a) b, by simp [Array_.tokens, Json.tokens]⟩
          | _ => rw [hq] at h; cases h
        | arrEnd => cases h; exact ⟨.nil, by simp [Array_.tokens]⟩
        | objEnd => cases h
        | num w => exact scalar (.num w) (by simp [Json.tokens]) h
        | str w => exact scalar (.str w) (by simp [Json.tokens]) h
        | true_ => exact scalar (.bool true) (by simp [Json.tokens]) h
        | false_ => exact scalar (.bool false) (by simp [Json.tokens]) h
        | null => exact scalar .null (by simp [Json.tokens]) h
      · rw [e] at h; cases h
      · rw [e] at h; cases h
    · intro s r h
      rw [jsonSkipObject] at h
      rcases next_fine fin s with ⟨t, q, e, rfl⟩ | ⟨q, e, -⟩ | e
      · rw [e] at h
        cases t with
        | objEnd => cases h; exact ⟨.nil, by simp [Members.tokens]⟩
        | str k =>
          simp only at h
          rcases next_fine fin q with ⟨t, q', e', rfl⟩ | ⟨q', e', -⟩ | e'
          · rw [e'] at h
            have scalar : ∀ v : Json, v.tokens = [t] → jsonSkipObject fin n q' = .ok () r →
                ∃ a : Members, JItem.tok (.str k) :: JItem.tok t :: q' = a.tokens.map .tok ++ .tok .objEnd :: r := by
              intro v hv h
              obtain ⟨a, rfl⟩ := iho q' r h
              exact ⟨.cons k v a, by simp [Members.tokens, hv]⟩
            cases t with
            | arrBegin =>
              simp only at h
              cases hq : jsonSkipArray fin n q' with
              | ok u q'' =>
                rw [hq] at h
                obtain ⟨a, rfl⟩ := iha q' q'' hq
                obtain ⟨b, rfl⟩ := iho q'' r h
                exact ⟨.cons k (.arr a) b, by simp [Members.tokens, Json.tokens]⟩
              | _ => rw [hq] at h; cases h
            | objBegin =>
              simp only at h
              cases hq : jsonSkipObject fin n q' with
              | ok u q'' =>
                rw [hq] at h
                obtain ⟨a, rfl⟩ := iho q' q'' hq
                obtain ⟨b, rfl⟩ := iho q'' r h
                exact ⟨.cons k (.obj a) b, by simp [Members.tokens, Json.tokens]⟩
              | _ => rw [hq] at h; cases h
            | arrEnd => cases h
            | objEnd => cases h
            | num w => exact scalar (.num w) (by simp [Json.tokens]) h
            | str w => exact scalar (.str w) (by simp [Json.tokens]) h
            | true_ => exact scalar (.bool true) (by simp [Json.tokens]) h
            | false_ => exact scalar (.bool false) (by simp [Json.tokens]) h
            | null => exact scalar .null (by simp [Json.tokens]) h
          · rw [e'] at h; cases h
          · rw [e'] at h; cases h
        | _ => cases h
      · rw [e] at h; cases h
      · rw [e] at h; cases h

/-- C57: whatever the tokens are, skipping a value succeeds only by consuming the tokens of exactly one JSON value:
closing brackets that do not match, stray closing brackets, missing ones and object keys that are no strings are
refused. -/
theorem C57_skip_sound (fin : JEnd) (n : Nat) (s r : List JItem) (h : jsonSkip fin n s = .ok () r) :
    ∃ v : Json, s = v.tokens.map .tok ++ r := by
  rw [jsonSkip] at h
  rcases next_fine fin s with ⟨t, q, e, rfl⟩ | ⟨q, e, -⟩ | e
  · rw [e] at h
    cases t with
    | arrBegin => obtain ⟨a, rfl⟩ := (skip_sound fin n).1 q r h; exact ⟨.arr a, by simp [Json.tokens]⟩
    | objBegin => obtain ⟨a, rfl⟩ := (skip_sound fin n).2 q r h; exact ⟨.obj a, by simp [Json.tokens]⟩
    | arrEnd => cases h
    | objEnd => cases h
    | num w => cases h; exact ⟨.num w, by simp [Json.tokens]⟩
    | str w => cases h; exact ⟨.str w, by simp [Json.tokens]⟩
    | true_ => cases h; exact ⟨.bool true, by simp [Json.tokens]⟩
    | false_ => cases h; exact ⟨.bool false, by simp [Json.tokens]⟩
    | null => cases h; exact ⟨.null, by simp [Json.tokens]⟩
  · rw [e] at h; cases h
  · rw [e] at h; cases h

/-- C57: skipping a value succeeds exactly if the tokens begin with a value, and then consumes that value. -/
theorem C57_skip_iff (fin : JEnd) (s r : List JItem) :
    jsonSkip fin (s.length + 1) s = .ok () r ↔ ∃ v : Json, s = v.tokens.map .tok ++ r := by
  constructor
  · exact C57_skip_sound fin _ s r
  · rintro ⟨v, rfl⟩
    exact skip_value _ v _ _ (by omega)

/-- `[1}` is no value. -/
example : jsonSkip .error 9 [.tok .arrBegin, .tok (.num ['1']), .tok .objEnd] = .error [] := by decide
example : jsonSkip .error 9 [.tok .arrBegin, .tok (.num ['1']), .tok .arrEnd, .tok .objEnd] = .ok () [.tok .objEnd] := by
  decide

/-! ## C39: refused documents -/

/-- C39: an object whose type is not a string is refused. -/
theorem C39_type_not_string [Zero ν] (num : Str → Option ν) (t : JTok) (ts : List JTok) (text : Str)
    (hts : ∀ s, t ≠ .str s) (ht : Written (.objBegin :: .str "type".toList :: t :: ts) text) :
    geoRead num text = ([], .error) := by
  unfold geoRead
  rw [lex_written ht]
  simp only [List.map_cons, List.length_cons]
  rw [geoObject]
  simp only [jsonExpect, jsonNext, if_true]
  rw [geoObjectData]
  simp only [jsonNext, if_true, jsonReadString]

/-- C39: a document that is not an object is refused. -/
theorem C39_not_object [Zero ν] (num : Str → Option ν) (t : JTok) (ts : List JTok) (text : Str)
    (hts : t ≠ .objBegin) (ht : Written (t :: ts) text) :
    geoRead num text = ([], .error) := by
  unfold geoRead
  rw [lex_written ht]
  simp only [List.map_cons, List.length_cons]
  rw [geoObject]
  simp only [jsonExpect, jsonNext, if_neg hts]

/-- C39: empty coordinates are refused, except for a MultiPolygon, which then has no polygon. -/
theorem C39_empty [Zero ν] (num : Str → Option ν) (type text : Str)
    (hty : type ∈ ["Point".toList, "MultiPoint".toList, "LineString".toList, "MultiLineString".toList,
      "Polygon".toList, "MultiPolygon".toList])
    (ht : Written (simpleObject type [.arrBegin, .arrEnd]) text) :
    geoRead num text =
      if type = "MultiPolygon".toList then ([GeoEvent.polygons ([] : List (List (V3 ν) × List (List (V3 ν))))], .ok)
      else ([], .error) := by
  rw [geoRead_simple num _ _ [] text ht (by intro rest; simp [geoReadCoords, jsonExpect, jsonNext, geoCoordsLoop])]
  simp only [List.mem_cons, List.not_mem_nil, or_false] at hty
  rcases hty with rfl | rfl | rfl | rfl | rfl | rfl
  · rw [if_neg (by decide)]; simp [geoFinish, geoPoint]
  · rw [if_neg (by decide)]; simp [geoFinish, geoMultiPoint, geoLineLoop]
  · rw [if_neg (by decide), geoFinish_LineString]; simp [geoLineString, geoLineLoop]
  · rw [if_neg (by decide)]; simp [geoFinish, geoMultiLineString, geoMultiLineLoop]
  · rw [if_neg (by decide), geoFinish_Polygon]; simp [geoPolygon, geoPolygonLoop]
  · rw [if_pos rfl, geoFinish_MultiPolygon]; simp [geoMultiPolygon, geoMultiPolygonLoop, geoAssemble]

/-- C39: a Polygon or MultiLineString whose coordinates are a list of positions, instead of a list of lists of
positions, is refused. -/
theorem C39_flat_refused [Zero ν] (num : Str → Option ν) (val : Str → ν) (type : Str) (p : Pos) (ps : List Pos) (text : Str)
    (hty : type = "Polygon".toList ∨ type = "MultiLineString".toList)
    (hnum : ∀ q ∈ p :: ps, num q.1 = some (val q.1) ∧ num q.2 = some (val q.2))
    (ht : Written (simpleObject type (listTokens posTokens (p :: ps))) text) :
    geoRead num text = ([], .error) := by
  have e : listTokens posTokens (p :: ps) =
      listTokens (fun ws => .arrBegin :: (ws.map JTok.num ++ [.arrEnd])) ((p :: ps).map fun q => [q.1, q.2]) := by
    simp only [listTokens, List.flatMap_map]
    rfl
  rw [e] at ht
  rw [geoRead_simple num _ _ (seqCoords (numsCoords val) 0 0 ((p :: ps).map fun q => [q.1, q.2])) text ht (by
    intro rest
    have := readCoords_list (reads_nums .error num val) [] ((p :: ps).map fun q => [q.1, q.2]) (by
      intro ws hws
      obtain ⟨q, hq, rfl⟩ := List.mem_map.1 hws
      intro w hw
      rcases (by simpa using hw : w = q.1 ∨ w = q.2) with rfl | rfl
      · exact (hnum q hq).1
      · exact (hnum q hq).2) rest
    simpa using this)]
  have hs : ∃ l, seqCoords (numsCoords val) 0 0 ((p :: ps).map fun q => [q.1, q.2]) = (val p.1, 0) :: (val p.2, 1) :: l := by
    simp [seqCoords, numsCoords]
  obtain ⟨l, hl⟩ := hs
  rw [hl]
  rcases hty with rfl | rfl
  · rw [geoFinish_Polygon]; simp [geoPolygon, geoPolygonLoop]
  · simp [geoFinish, geoMultiLineString, geoMultiLineLoop]

/-- C39 fails: three-dimensional positions in a MultiLineString are refused, four-dimensional ones are accepted as two
positions. -/
theorem C39_multiline_dimensions [Zero ν] (num : Str → Option ν) (val : Str → ν) (a b c d text : Str)
    (hnum : ∀ w, w = a ∨ w = b ∨ w = c ∨ w = d → num w = some (val w)) :
    (Written (simpleObject "MultiLineString".toList
      [.arrBegin, .arrBegin, .arrBegin, .num a, .num b, .num c, .arrEnd, .arrEnd, .arrEnd]) text →
      geoRead num text = ([], .error)) ∧
    (Written (simpleObject "MultiLineString".toList
      [.arrBegin, .arrBegin, .arrBegin, .num a, .num b, .num c, .num d, .arrEnd, .arrEnd, .arrEnd]) text →
      geoRead num text = ([.lines [[⟨val a, val b, val c⟩, ⟨val c, val d, 0⟩]]], .ok)) := by
  constructor
  · intro ht
    rw [geoRead_simple num _ _ [(val a, 0), (val b, 2), (val c, 2)] text ht (by
      intro rest; simp [geoReadCoords, jsonExpect, jsonNext, geoCoordsLoop, hnum])]
    simp [geoFinish, geoMultiLineString, geoMultiLineLoop, nextLevelIs, pushLast]
  · intro ht
    rw [geoRead_simple num _ _ [(val a, 0), (val b, 2), (val c, 2), (val d, 2)] text ht (by
      intro rest; simp [geoReadCoords, jsonExpect, jsonNext, geoCoordsLoop, hnum])]
    simp [geoFinish, geoMultiLineString, geoMultiLineLoop, nextLevelIs, pushLast]

theorem geoObjects_then_bad [Zero ν] (fin : JEnd) (num : Str → Option ν) (val : Str → ν) (ds : GeoList) (hok : ds.Ok)
    (hnum : ∀ g ∈ ds.geometries, ∀ p ∈ g.positions, num p.1 = some (val p.1) ∧ num p.2 = some (val p.2))
    (t : JTok) (h1 : t ≠ .objBegin) (h2 : t ≠ .arrEnd) :
    ∀ (n : Nat) (rest : List JItem), (ds.tokens.map JItem.tok ++ .tok t :: rest).length < n →
      geoObjectsLoop fin num n (ds.tokens.map .tok ++ .tok t :: rest) =
        (ds.geometries.map (·.event val), .error rest) := by
  match ds with
  | .nil =>
    intro n rest hn
    obtain ⟨n, rfl⟩ : ∃ m, n = m + 1 := ⟨n - 1, by omega⟩
    rw [geoObjectsLoop]
    cases t <;> simp_all [GeoList.tokens, GeoList.geometries, jsonNext]
  | .cons d ds =>
    intro n rest hn
    have hd := geoObject_doc fin num val d hok.1 (fun g hg => hnum g (by simp [GeoList.geometries, hg]))
    obtain ⟨body, hb, he⟩ := hd
    have ih := geoObjects_then_bad fin num val ds hok.2 (fun g hg => hnum g (by simp [GeoList.geometries, hg])) t h1 h2
    obtain ⟨n, rfl⟩ : ∃ m, n = m + 1 := ⟨n - 1, by omega⟩
    simp only [GeoList.tokens, hb, List.map_append, List.map_cons, List.cons_append, List.append_assoc,
      List.length_cons, List.length_append] at hn ⊢
    rw [geoObjectsLoop]
    simp only [jsonNext]
    rw [he n _ (by simp only [List.length_append, List.length_cons]; omega)]
    simp only
    rw [ih n rest (by simp only [List.length_append, List.length_cons]; omega)]
    simp [GeoList.geometries]

/-- C39: if something in a feature collection is no feature, the document is refused, but the reader has already
received the geometries of all features before it. -/
theorem C39_delivered_before_error [Zero ν] (num : Str → Option ν) (val : Str → ν) (ds : GeoList) (hok : ds.Ok)
    (hnum : ∀ g ∈ ds.geometries, ∀ p ∈ g.positions, num p.1 = some (val p.1) ∧ num p.2 = some (val p.2))
    (t : JTok) (ts : List JTok) (text : Str) (h1 : t ≠ .objBegin) (h2 : t ≠ .arrEnd)
    (ht : Written ([.objBegin, .str "type".toList, .str "FeatureCollection".toList, .str "features".toList, .arrBegin] ++
      ds.tokens ++ t :: ts) text) :
    geoRead num text = (ds.geometries.map (·.event val), .error) := by
  unfold geoRead
  rw [lex_written ht]
  simp only [List.map_append, List.map_cons, List.map_nil, List.cons_append, List.nil_append, List.length_cons,
    List.length_append, List.length_map]
  rw [geoObject]
  simp only [jsonExpect, jsonNext, if_true]
  rw [geoObjectData]
  simp only [jsonNext, if_true, jsonReadString]
  rw [geoObjectData]
  simp only [jsonNext]
  rw [if_neg (by decide), if_pos trivial, geoObjects]
  simp only [jsonExpect, jsonNext, if_true]
  rw [geoObjects_then_bad .error num val ds hok hnum t h1 h2 _ _ (by
    simp only [List.length_append, List.length_cons, List.length_map]; omega)]

/-! ## C58: files that can not be loaded -/

/-- C58: a file that can not be read, and a file that is no document, is reported when points or lines are loaded from
it. -/
theorem C58_failures [Zero ν] (readFile : Str → Option Str) (num : Str → Option ν) (path format : Str) (hp : path ≠ [])
    (hf : detectFormat path format = "geojson".toList)
    (hbad : readFile path = none ∨ ∃ text, readFile path = some text ∧ (geoRead num text).2 = .error) :
    (∃ st e, dataLoadPolylines2 readFile (geoLineReader readFile num) path format none none {} {} [] = (st, .error e)) ∧
    (∃ st e, dataLoadPoints2 readFile (geoPointReader readFile num) path format none none {} {} = (st, .error e)) := by
  have hpe : path.isEmpty = false := by cases path <;> simp_all
  rcases hbad with h | ⟨text, h, hg⟩
  · constructor
    · unfold dataLoadPolylines2
      simp [loadInlineRef, hpe, hf, geoLineReader, h]
    · unfold dataLoadPoints2
      simp [loadInlineRef, hpe, hf, geoPointReader, h]
  · constructor
    · unfold dataLoadPolylines2
      simp [loadInlineRef, hpe, hf, geoLineReader, h, hg, geoOutcome]
    · unfold dataLoadPoints2
      simp [loadInlineRef, hpe, hf, geoPointReader, h, hg, geoOutcome]

end Clip
