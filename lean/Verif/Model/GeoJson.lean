import Verif.Model.Json
import Verif.Model.Outcome
/-!
# Model of `src/utils/geojson.cc`

`num` is `std::stod` (`none` if it throws).  The three callbacks of the reader always succeed (as all of those in
data.cc do) and are represented by the sequence of their calls.
-/
namespace Clip
variable {ν : Type}

/-- `vec3`. -/
structure V3 (ν : Type) where
  x : ν
  y : ν
  z : ν
  deriving DecidableEq, Repr

/-- A call of one of the callbacks (geojson.h:22-26). -/
inductive GeoEvent (ν : Type) where
  | points (ps : List (V3 ν))
  | lines (ls : List (List (V3 ν)))
  | polygons (ps : List (List (V3 ν) × List (List (V3 ν))))
  deriving DecidableEq, Repr

/-- geojson.cc:21-24 `GeoJSONCoord`: the value and its `rlevel`. -/
abbrev GeoCoord (ν : Type) := ν × Nat

/-- geojson.cc:36-72, the loop of `geojson_read_coords`.  The C++ level is -1 exactly when the loop ends. -/
def geoCoordsLoop (fin : JEnd) (num : Str → Option ν) (level rlevel : Nat) (acc : List (GeoCoord ν)) :
    List JItem → JRes (List (GeoCoord ν))
  | [] => match fin with
    | .error => .error []
    | .loops => .loops
  | .bad :: r => .error r
  | .tok t :: r =>
    match t with
    | .num w =>
      match num w with
      | none => .error r
      | some v => geoCoordsLoop fin num level level (acc ++ [(v, rlevel)]) r
    | .arrBegin => geoCoordsLoop fin num (level + 1) rlevel acc r
    | .arrEnd => if level = 0 then .ok acc r else geoCoordsLoop fin num (level - 1) (level - 1) acc r
    | _ => .error r

/-- geojson.cc:29-75 `geojson_read_coords`: appends to `coords`. -/
def geoReadCoords (fin : JEnd) (num : Str → Option ν) (acc : List (GeoCoord ν)) (s : List JItem) :
    JRes (List (GeoCoord ν)) :=
  match jsonExpect fin .arrBegin s with
  | .ok _ r => geoCoordsLoop fin num 0 0 acc r
  | .error r => .error r
  | .loops => .loops
  | .undefined => .undefined
  | .outOfFuel => .outOfFuel

/-- `rings.back().vertices.emplace_back(v)`. -/
def pushLast {α : Type} : List (List α) → α → List (List α)
  | [], _ => []
  | [r], v => [r ++ [v]]
  | r :: rs, v => r :: pushLast rs v

/-- The level of the next coordinate, as in `i + 2 < coords.size() && coords[i + 2].rlevel == k`. -/
def nextLevelIs (k : Nat) : List (GeoCoord ν) → Option ν
  | (z, l) :: _ => if l = k then some z else none
  | [] => none

/-- geojson.cc:81-102, the loop of `geojson_read_polygon`.  For a three-dimensional position, line 93 takes the third
coordinate in place of the second. -/
def geoPolygonLoop [Zero ν] (rings : List (List (V3 ν))) : List (GeoCoord ν) → Outcome Unit (List (List (V3 ν)))
  | [] => .ok rings
  | [_] => .error ()
  | (x, lx) :: (y, ly) :: r =>
    let rings := if lx = 0 then rings ++ [[]] else rings
    if ly ≠ 2 ∨ rings = [] then .error ()
    else
      match nextLevelIs 2 r with
      | some z => geoPolygonLoop (pushLast rings ⟨x, z, z⟩) r
      | none => geoPolygonLoop (pushLast rings ⟨x, y, 0⟩) r

/-- geojson.cc:77-120 `geojson_read_polygon`. -/
def geoPolygon [Zero ν] (coords : List (GeoCoord ν)) : Outcome Unit (List (GeoEvent ν)) :=
  match geoPolygonLoop [] coords with
  | .ok (b :: hs) => .ok [.polygons [(b, hs)]]
  | .ok [] => .error ()
  | .error e => .error e
  | .thrown => .thrown
  | .undefined => .undefined

/-- `rings.back()` applied to `f` -/
def modifyLast {α : Type} (f : α → α) : List α → List α
  | [] => []
  | [a] => [f a]
  | a :: as => a :: modifyLast f as

/-- geojson.cc:126-152, the loop of `geojson_read_multi_polygon`: `rings.back()` of an empty vector is undefined, so
is `rings.back().back()`. -/
def geoMultiPolygonLoop [Zero ν] (rings : List (List (List (V3 ν)))) :
    List (GeoCoord ν) → Outcome Unit (List (List (List (V3 ν))))
  | [] => .ok rings
  | (x, lx) :: l =>
    let rings := if lx = 0 then rings ++ [[]] else rings
    if (lx = 0 ∨ lx = 1) ∧ rings = [] then .undefined
    else
      let rings := if lx = 0 ∨ lx = 1 then modifyLast (· ++ [[]]) rings else rings
      match l with
      | [] => .error ()
      | (y, ly) :: r =>
        if ly ≠ 3 ∨ rings = [] then .error ()
        else
          match nextLevelIs 3 r with
          | some z => geoMultiPolygonLoop (modifyLast (pushLast · ⟨x, z, z⟩) rings) r
          | none => geoMultiPolygonLoop (modifyLast (pushLast · ⟨x, y, 0⟩) rings) r

/-- geojson.cc:154-167: the rings of every polygon. -/
def geoAssemble : List (List (List (V3 ν))) → Option (List (List (V3 ν) × List (List (V3 ν))))
  | [] => some []
  | [] :: _ => none
  | (b :: hs) :: r =>
    match geoAssemble r with
    | some ps => some ((b, hs) :: ps)
    | none => none

/-- geojson.cc:122-175 `geojson_read_multi_polygon`. -/
def geoMultiPolygon [Zero ν] (coords : List (GeoCoord ν)) : Outcome Unit (List (GeoEvent ν)) :=
  match geoMultiPolygonLoop [] coords with
  | .ok rings =>
    match geoAssemble rings with
    | some ps => .ok [.polygons ps]
    | none => .error ()
  | .error e => .error e
  | .thrown => .thrown
  | .undefined => .undefined

/-- geojson.cc:177-212 `geojson_read_point`: with two coordinates, line 188 reads the third one. -/
def geoPoint [Zero ν] (coords : List (GeoCoord ν)) : Outcome Unit (List (GeoEvent ν)) :=
  match coords with
  | [(_, l0), (_, l1)] => if l0 = 0 ∧ l1 = 0 then .undefined else .error ()
  | [(x, l0), (y, l1), (_, l2)] => if l0 = 0 ∧ l1 = 0 ∧ l2 = 0 then .ok [.points [⟨x, y, 0⟩]] else .error ()
  | _ => .error ()

/-- geojson.cc:218-234, 253-269: the loops of `geojson_read_multi_point` and `geojson_read_line_string`. -/
def geoLineLoop [Zero ν] (line : List (V3 ν)) : List (GeoCoord ν) → Outcome Unit (List (V3 ν))
  | [] => .ok line
  | [_] => .error ()
  | (x, lx) :: (y, ly) :: r =>
    if lx ≠ 0 ∨ ly ≠ 1 then .error ()
    else
      match nextLevelIs 1 r with
      | some z => geoLineLoop (line ++ [⟨x, y, z⟩]) r
      | none => geoLineLoop (line ++ [⟨x, y, 0⟩]) r

/-- geojson.cc:214-247 `geojson_read_multi_point`. -/
def geoMultiPoint [Zero ν] (coords : List (GeoCoord ν)) : Outcome Unit (List (GeoEvent ν)) :=
  match geoLineLoop [] coords with
  | .ok [] => .error ()
  | .ok ps => .ok [.points ps]
  | .error e => .error e
  | .thrown => .thrown
  | .undefined => .undefined

/-- geojson.cc:249-282 `geojson_read_line_string`. -/
def geoLineString [Zero ν] (coords : List (GeoCoord ν)) : Outcome Unit (List (GeoEvent ν)) :=
  match geoLineLoop [] coords with
  | .ok [] => .error ()
  | .ok l => .ok [.lines [l]]
  | .error e => .error e
  | .thrown => .thrown
  | .undefined => .undefined

/-- geojson.cc:288-308, the loop of `geojson_read_multi_line_string`. -/
def geoMultiLineLoop [Zero ν] (ls : List (List (V3 ν))) : List (GeoCoord ν) → Outcome Unit (List (List (V3 ν)))
  | [] => .ok ls
  | [_] => .error ()
  | (x, lx) :: (y, ly) :: r =>
    let ls := if lx = 0 then ls ++ [[]] else ls
    if ly ≠ 2 ∨ ls = [] then .error ()
    else
      match nextLevelIs 2 r with
      | some z => geoMultiLineLoop (pushLast ls ⟨x, y, z⟩) r
      | none => geoMultiLineLoop (pushLast ls ⟨x, y, 0⟩) r

/-- geojson.cc:284-321 `geojson_read_multi_line_string`. -/
def geoMultiLineString [Zero ν] (coords : List (GeoCoord ν)) : Outcome Unit (List (GeoEvent ν)) :=
  match geoMultiLineLoop [] coords with
  | .ok [] => .error ()
  | .ok ls => .ok [.lines ls]
  | .error e => .error e
  | .thrown => .thrown
  | .undefined => .undefined

/-- geojson.cc:379-409: what an object of the given type does when it is complete. -/
def geoFinish [Zero ν] (type : Str) (coords : List (GeoCoord ν)) : Outcome Unit (List (GeoEvent ν)) :=
  if type = "Feature".toList ∨ type = "FeatureCollection".toList ∨ type = "GeometryCollection".toList then .ok []
  else if type = "Point".toList then geoPoint coords
  else if type = "MultiPoint".toList then geoMultiPoint coords
  else if type = "Polygon".toList then geoPolygon coords
  else if type = "MultiPolygon".toList then geoMultiPolygon coords
  else if type = "LineString".toList then geoLineString coords
  else if type = "MultiLineString".toList then geoMultiLineString coords
  else .error ()

mutual
/-- geojson.cc:323-410 `geojson_read_object_data`: the calls made and the outcome.  The result of `json_skip` (line
376) is ignored.  `fuel` as in `jsonSkipArray`. -/
def geoObjectData [Zero ν] (fin : JEnd) (num : Str → Option ν) :
    Nat → Str → List (GeoCoord ν) → List JItem → List (GeoEvent ν) × JRes Unit
  | 0, _, _, _ => ([], .outOfFuel)
  | n + 1, type, coords, s =>
    match jsonNext fin s with
    | .ok .objEnd r =>
      match geoFinish type coords with
      | .ok ev => (ev, .ok () r)
      | .error _ => ([], .error r)
      | .thrown => ([], .undefined)
      | .undefined => ([], .undefined)
    | .ok (.str key) r =>
      if key = "type".toList then
        match jsonReadString fin r with
        | .ok t r => geoObjectData fin num n t coords r
        | .error r => ([], .error r)
        | .loops => ([], .loops)
        | .undefined => ([], .undefined)
        | .outOfFuel => ([], .outOfFuel)
      else if key = "features".toList then
        match geoObjects fin num n r with
        | (ev, .ok _ r) =>
          let (ev', res) := geoObjectData fin num n type coords r
          (ev ++ ev', res)
        | e => e
      else if key = "geometry".toList then
        match geoObject fin num n r with
        | (ev, .ok _ r) =>
          let (ev', res) := geoObjectData fin num n type coords r
          (ev ++ ev', res)
        | e => e
      else if key = "coordinates".toList then
        match geoReadCoords fin num coords r with
        | .ok cs r => geoObjectData fin num n type cs r
        | .error r => ([], .error r)
        | .loops => ([], .loops)
        | .undefined => ([], .undefined)
        | .outOfFuel => ([], .outOfFuel)
      else
        match jsonSkip fin n r with
        | .ok _ r => geoObjectData fin num n type coords r
        | .error r => geoObjectData fin num n type coords r
        | .loops => ([], .loops)
        | .undefined => ([], .undefined)
        | .outOfFuel => ([], .outOfFuel)
    | .ok _ r => ([], .error r)
    | .error r => ([], .error r)
    | .loops => ([], .loops)
    | .undefined => ([], .undefined)
    | .outOfFuel => ([], .outOfFuel)

/-- geojson.cc:412-440 `geojson_read_objects`. -/
def geoObjects [Zero ν] (fin : JEnd) (num : Str → Option ν) :
    Nat → List JItem → List (GeoEvent ν) × JRes Unit
  | 0, _ => ([], .outOfFuel)
  | n + 1, s =>
    match jsonExpect fin .arrBegin s with
    | .ok _ r => geoObjectsLoop fin num n r
    | .error r => ([], .error r)
    | .loops => ([], .loops)
    | .undefined => ([], .undefined)
    | .outOfFuel => ([], .outOfFuel)

/-- The loop of `geojson_read_objects`, geojson.cc:419-437. -/
def geoObjectsLoop [Zero ν] (fin : JEnd) (num : Str → Option ν) :
    Nat → List JItem → List (GeoEvent ν) × JRes Unit
  | 0, _ => ([], .outOfFuel)
  | n + 1, s =>
    match jsonNext fin s with
    | .ok .objBegin r =>
      match geoObjectData fin num n [] [] r with
      | (ev, .ok _ r) =>
        let (ev', res) := geoObjectsLoop fin num n r
        (ev ++ ev', res)
      | e => e
    | .ok .arrEnd r => ([], .ok () r)
    | .ok _ r => ([], .error r)
    | .error r => ([], .error r)
    | .loops => ([], .loops)
    | .undefined => ([], .undefined)
    | .outOfFuel => ([], .outOfFuel)

/-- geojson.cc:442-454 `geojson_read_object`. -/
def geoObject [Zero ν] (fin : JEnd) (num : Str → Option ν) :
    Nat → List JItem → List (GeoEvent ν) × JRes Unit
  | 0, _ => ([], .outOfFuel)
  | n + 1, s =>
    match jsonExpect fin .objBegin s with
    | .ok _ r => geoObjectData fin num n [] [] r
    | .error r => ([], .error r)
    | .loops => ([], .loops)
    | .undefined => ([], .undefined)
    | .outOfFuel => ([], .outOfFuel)
end

/-- The outcome of reading a file. -/
inductive GeoRes where
  | ok
  | error
  | loops
  | undefined
  | outOfFuel
  deriving DecidableEq, Repr

/-- geojson.cc:456-465 `geojson_read_file`, on the contents of the file. -/
def geoRead [Zero ν] (num : Str → Option ν) (text : Str) : List (GeoEvent ν) × GeoRes :=
  let s := lex text
  match geoObject s.fin num (s.items.length + 1) s.items with
  | (ev, .ok _ _) => (ev, .ok)
  | (ev, .error _) => (ev, .error)
  | (ev, .loops) => (ev, .loops)
  | (ev, .undefined) => (ev, .undefined)
  | (ev, .outOfFuel) => (ev, .outOfFuel)

end Clip
