import Verif.Model.GeoJson
/-!
# JSON values, how they are written, and GeoJSON documents

Uses only types of the model: `JTok` (the alphabet of tokens), `V3`, `GeoEvent` (the calls a reader receives).
-/
namespace Clip.JsonSpec

mutual
/-- JSON values.  Numbers and strings are given by their raw text. -/
inductive Json where
  | null
  | bool (b : Bool)
  | num (w : Str)
  | str (s : Str)
  | arr (a : Array_)
  | obj (o : Members)
inductive Array_ where
  | nil
  | cons (v : Json) (a : Array_)
inductive Members where
  | nil
  | cons (k : Str) (v : Json) (o : Members)
end

mutual
/-- The tokens of a value (`:` and `,` are separators, see `Written`). -/
def Json.tokens : Json → List JTok
  | .null => [.null]
  | .bool true => [.true_]
  | .bool false => [.false_]
  | .num w => [.num w]
  | .str s => [.str s]
  | .arr a => .arrBegin :: (a.tokens ++ [.arrEnd])
  | .obj o => .objBegin :: (o.tokens ++ [.objEnd])
def Array_.tokens : Array_ → List JTok
  | .nil => []
  | .cons v a => v.tokens ++ a.tokens
def Members.tokens : Members → List JTok
  | .nil => []
  | .cons k v o => .str k :: (v.tokens ++ o.tokens)
end

/-- Raw string contents: no quote and no NUL, except that a backslash takes the next character along. -/
def RawString : Str → Prop
  | [] => True
  | ['\\'] => False
  | '\\' :: _ :: r => RawString r
  | c :: r => c ≠ '"' ∧ c ≠ '\x00' ∧ RawString r

/-- `-?[0-9]...`: a number text. -/
def numberStart (c : Char) : Prop := c = '-' ∨ c.isDigit
def numberChar (c : Char) : Prop := c = '-' ∨ c = '+' ∨ c = '.' ∨ c.isDigit ∨ c = 'e' ∨ c = 'E'
def NumberText (w : Str) : Prop := (∃ c r, w = c :: r ∧ numberStart c) ∧ ∀ c ∈ w, numberChar c

/-- What may stand behind a number: blanks, then a character that can not belong to a number. -/
def NumberEnd (s : Str) : Prop :=
  ∃ c r, s.dropWhile (· = ' ') = c :: r ∧ ¬ numberChar c ∧ c ≠ '\x00'

/-- How tokens other than numbers are written. -/
def tokenText : JTok → Str
  | .objBegin => ['{']
  | .objEnd => ['}']
  | .arrBegin => ['[']
  | .arrEnd => [']']
  | .num w => w
  | .str s => '"' :: (s ++ ['"'])
  | .true_ => ['t', 'r', 'u', 'e']
  | .false_ => ['f', 'a', 'l', 's', 'e']
  | .null => ['n', 'u', 'l', 'l']

/-- The text is one way of writing the tokens: separators and white space may be put in front of every token and at
the end. -/
inductive Written : List JTok → Str → Prop
  | nil : Written [] []
  | sep {ts s c} : c = ':' ∨ c = ',' ∨ c = ' ' ∨ c = '\n' ∨ c = '\r' ∨ c = '\t' → Written ts s →
      Written ts (c :: s)
  | num {ts s w} : NumberText w → NumberEnd s → Written ts s → Written (.num w :: ts) (w ++ s)
  | str {ts s t} : RawString t → Written ts s → Written (.str t :: ts) ('"' :: (t ++ '"' :: s))
  | other {ts s t} : (∀ w, t ≠ .num w) → (∀ w, t ≠ .str w) → Written ts s → Written (t :: ts) (tokenText t ++ s)

/-! ## GeoJSON -/

/-- A two-dimensional position, given by the texts of its numbers. -/
abbrev Pos := Str × Str

inductive Geometry where
  | multiPoint (ps : List Pos)
  | lineString (ps : List Pos)
  | multiLineString (ls : List (List Pos))
  | polygon (rings : List (List Pos))
  | multiPolygon (polys : List (List (List Pos)))

/-- `[x, y]` -/
def posTokens (p : Pos) : List JTok := [.arrBegin, .num p.1, .num p.2, .arrEnd]
/-- `[a, b, ...]` -/
def listTokens {α : Type} (f : α → List JTok) (l : List α) : List JTok := .arrBegin :: (l.flatMap f ++ [.arrEnd])

def Geometry.type : Geometry → Str
  | .multiPoint _ => "MultiPoint".toList
  | .lineString _ => "LineString".toList
  | .multiLineString _ => "MultiLineString".toList
  | .polygon _ => "Polygon".toList
  | .multiPolygon _ => "MultiPolygon".toList

def Geometry.coordinates : Geometry → List JTok
  | .multiPoint ps => listTokens posTokens ps
  | .lineString ps => listTokens posTokens ps
  | .multiLineString ls => listTokens (listTokens posTokens) ls
  | .polygon rs => listTokens (listTokens posTokens) rs
  | .multiPolygon ps => listTokens (listTokens (listTokens posTokens)) ps

/-- All the positions. -/
def Geometry.positions : Geometry → List Pos
  | .multiPoint ps => ps
  | .lineString ps => ps
  | .multiLineString ls => ls.flatten
  | .polygon rs => rs.flatten
  | .multiPolygon ps => ps.flatten.flatten

/-- As RFC 7946 wants it: no empty arrays. -/
def Geometry.NonEmpty : Geometry → Prop
  | .multiPoint ps => ps ≠ []
  | .lineString ps => ps ≠ []
  | .multiLineString ls => ls ≠ [] ∧ ∀ l ∈ ls, l ≠ []
  | .polygon rs => rs ≠ [] ∧ ∀ r ∈ rs, r ≠ []
  | .multiPolygon ps => ps ≠ [] ∧ ∀ p ∈ ps, p ≠ [] ∧ ∀ r ∈ p, r ≠ []

/-- The point meant by a two-dimensional position. -/
def posV3 {ν : Type} [Zero ν] (val : Str → ν) (p : Pos) : V3 ν := ⟨val p.1, val p.2, 0⟩

/-- The call a geometry must lead to: all its positions; the first ring of a polygon is its boundary, the others
are holes. -/
def Geometry.event {ν : Type} [Zero ν] (val : Str → ν) : Geometry → GeoEvent ν
  | .multiPoint ps => .points (ps.map (posV3 val))
  | .lineString ps => .lines [ps.map (posV3 val)]
  | .multiLineString ls => .lines (ls.map (·.map (posV3 val)))
  | .polygon rs => .polygons [((rs.headD []).map (posV3 val), rs.tail.map (·.map (posV3 val)))]
  | .multiPolygon ps => .polygons (ps.map fun p => ((p.headD []).map (posV3 val), p.tail.map (·.map (posV3 val))))

/-- Keys with a meaning. -/
def geoKeys : List Str := ["type".toList, "features".toList, "geometry".toList, "coordinates".toList]

/-- Members of an object that have no meaning. -/
def Foreign : Members → Prop
  | .nil => True
  | .cons k _ o => k ∉ geoKeys ∧ Foreign o

mutual
/-- GeoJSON objects, with foreign members (`id`, `bbox`, `properties`, ...) anywhere.  `typeFirst`: is the member
`type` written before the other one? -/
inductive Geo where
  | geometry (typeFirst : Bool) (o1 o2 o3 : Members) (g : Geometry)
  | feature (typeFirst : Bool) (o1 o2 o3 : Members) (geometry : Geo)
  | collection (typeFirst : Bool) (o1 o2 o3 : Members) (features : GeoList)
inductive GeoList where
  | nil
  | cons (g : Geo) (gs : GeoList)
end

/-- An object with two members, and foreign ones. -/
def objTokens (typeFirst : Bool) (o1 o2 o3 : Members) (type key : Str) (v : List JTok) : List JTok :=
  let m1 := [.str "type".toList, .str type]
  let m2 := .str key :: v
  .objBegin :: (o1.tokens ++ (if typeFirst then m1 else m2) ++ o2.tokens ++ (if typeFirst then m2 else m1)
    ++ o3.tokens ++ [.objEnd])

mutual
def Geo.tokens : Geo → List JTok
  | .geometry tf o1 o2 o3 g => objTokens tf o1 o2 o3 g.type "coordinates".toList g.coordinates
  | .feature tf o1 o2 o3 g => objTokens tf o1 o2 o3 "Feature".toList "geometry".toList g.tokens
  | .collection tf o1 o2 o3 gs =>
    objTokens tf o1 o2 o3 "FeatureCollection".toList "features".toList (.arrBegin :: (gs.tokens ++ [.arrEnd]))
def GeoList.tokens : GeoList → List JTok
  | .nil => []
  | .cons g gs => g.tokens ++ gs.tokens
end

mutual
/-- Foreign members are foreign, and no array is empty. -/
def Geo.Ok : Geo → Prop
  | .geometry _ o1 o2 o3 g => Foreign o1 ∧ Foreign o2 ∧ Foreign o3 ∧ g.NonEmpty
  | .feature _ o1 o2 o3 g => Foreign o1 ∧ Foreign o2 ∧ Foreign o3 ∧ g.Ok
  | .collection _ o1 o2 o3 gs => Foreign o1 ∧ Foreign o2 ∧ Foreign o3 ∧ gs.Ok
def GeoList.Ok : GeoList → Prop
  | .nil => True
  | .cons g gs => g.Ok ∧ gs.Ok
end

mutual
/-- The geometries of a document, in the order in which they are written. -/
def Geo.geometries : Geo → List Geometry
  | .geometry _ _ _ _ g => [g]
  | .feature _ _ _ _ g => g.geometries
  | .collection _ _ _ _ gs => gs.geometries
def GeoList.geometries : GeoList → List Geometry
  | .nil => []
  | .cons g gs => g.geometries ++ gs.geometries
end

end Clip.JsonSpec
