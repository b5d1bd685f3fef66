import Verif.Model.VMath
/-!
# Model of `src/graphics/path.cc`, `src/graphics/geometry.cc` and `src/graphics/polygon.h`

A `PathData` (command and coefficients, graphics/path.h:34-38) is one constructor; coefficients a command does not use are
uninitialised in the code and absent here.  The methods of `Path` append to the list.
-/
namespace Clip
noncomputable section

/-- graphics/path.h:24-38 `enum class PathCommand`, `struct PathData`. -/
inductive PathCmd where
  | moveTo (x y : ℝ)
  | lineTo (x y : ℝ)
  | quadTo (cx cy x y : ℝ)
  | cubicTo (c1x c1y c2x c2y x y : ℝ)
  | close

/-- graphics/path.h:40-72 `struct Path`. -/
abbrev Path := List PathCmd

/-- geometry.h:26-33 `struct Rectangle`. -/
@[ext] structure Rect where
  x : ℝ
  y : ℝ
  w : ℝ
  h : ℝ

/-- geometry.h:48-51 `struct Poly2`: boundary and holes (lists of vertices). -/
structure Poly2 where
  boundary : List Vec2
  holes : List (List Vec2)

/-- geometry.h:56-59 `struct Poly3`. -/
structure Poly3 where
  boundary : List Vec3
  holes : List (List Vec3)

/-- geometry.cc:51-59 `polyline3_to_polyline2`, with the conversion of vmath.cc:34-37. -/
def polyline3To2 (p : List Vec3) : List Vec2 := p.map fun v => ⟨v.x, v.y⟩

/-- geometry.cc:61-70 `poly3_to_poly2`. -/
def poly3To2 (p : Poly3) : Poly2 := ⟨polyline3To2 p.boundary, p.holes.map polyline3To2⟩

/-- graphics/path.cc:133-156 `path_to_polygon_simple`. -/
def pathToPolygon (p : Path) : List Vec2 :=
  p.filterMap fun
    | .moveTo x y => some ⟨x, y⟩
    | .lineTo x y => some ⟨x, y⟩
    | .quadTo _ _ x y => some ⟨x, y⟩
    | .cubicTo _ _ _ _ x y => some ⟨x, y⟩
    | .close => none

/-- The loop of graphics/path.cc:167-169, 306-308, 318-320: `lineTo` for every further vertex. -/
def lineTos (vs : List Vec2) : Path := vs.map fun v => .lineTo v.x v.y

/-- graphics/path.cc:158-173 `path_from_polygon`. -/
def pathFromPolygon (vs : List Vec2) : Path :=
  match vs with
  | [] => []
  | v :: vs => .moveTo v.x v.y :: lineTos vs ++ [.close]

/-- graphics/path.cc:299-309 `path_add_poly_line`. -/
def pathAddPolyLine (p : Path) (vs : List Vec2) : Path :=
  match vs with
  | [] => p
  | v :: vs => p ++ .moveTo v.x v.y :: lineTos vs

/-- graphics/path.cc:311-323 `path_add_poly_ring`. -/
def pathAddPolyRing (p : Path) (vs : List Vec2) : Path :=
  match vs with
  | [] => p
  | v :: vs => p ++ (.moveTo v.x v.y :: lineTos vs ++ [.close])

/-- graphics/path.cc:175-184 `path_from_poly2`. -/
def pathFromPoly2 (p : Poly2) : Path := p.holes.foldl pathAddPolyRing (pathAddPolyRing [] p.boundary)

/-- `mul(transform, {x, y, 1.0})` of graphics/path.cc:191-211, projected to `x`, `y`. -/
def Mat3.apply (m : Mat3) (x y : ℝ) : Vec2 := let v := m.mulVec ⟨x, y, 1⟩; ⟨v.x, v.y⟩

/-- graphics/path.cc:186-222 `path_transform`: one command. -/
def transformCmd (t : Mat3) : PathCmd → PathCmd
  | .moveTo x y => let p := t.apply x y; .moveTo p.x p.y
  | .lineTo x y => let p := t.apply x y; .lineTo p.x p.y
  | .quadTo cx cy x y => let p := t.apply cx cy; let q := t.apply x y; .quadTo p.x p.y q.x q.y
  | .cubicTo c1x c1y c2x c2y x y =>
    let p := t.apply c1x c1y; let q := t.apply c2x c2y; let r := t.apply x y
    .cubicTo p.x p.y q.x q.y r.x r.y
  | .close => .close

/-- graphics/path.cc:186-222 `path_transform`. -/
def pathTransform (p : Path) (t : Mat3) : Path := p.map (transformCmd t)

/-- graphics/path.cc:224-227 `path_add_line`. -/
def pathAddLine (p : Path) (a b : Vec2) : Path := p ++ [.moveTo a.x a.y, .lineTo b.x b.y]

/-- graphics/path.cc:229-247 `path_add_rectangle(path, origin, size)`. -/
def pathAddRectCentered (p : Path) (o s : Vec2) : Path :=
  p ++ [.moveTo (o.x + s.x / 2) (o.y + s.y / 2), .lineTo (o.x + s.x / 2) (o.y - s.y / 2),
    .lineTo (o.x - s.x / 2) (o.y - s.y / 2), .lineTo (o.x - s.x / 2) (o.y + s.y / 2), .close]

/-- graphics/path.cc:249-255 `path_add_rectangle(path, box)`. -/
def pathAddRect (p : Path) (b : Rect) : Path :=
  p ++ [.moveTo b.x b.y, .lineTo b.x (b.y + b.h), .lineTo (b.x + b.w) (b.y + b.h), .lineTo (b.x + b.w) b.y, .close]

/-- graphics/path.cc:258 `control_point_distance`. -/
def kCircle : ℝ := 0.552284749831

/-- graphics/path.cc:257-297 `path_add_circle`. -/
def pathAddCircle (p : Path) (o : Vec2) (r : ℝ) : Path :=
  p ++ [.moveTo o.x (o.y - r),
    .cubicTo (o.x - r * kCircle) (o.y - r) (o.x - r) (o.y - r * kCircle) (o.x - r) o.y,
    .cubicTo (o.x - r) (o.y + r * kCircle) (o.x - r * kCircle) (o.y + r) o.x (o.y + r),
    .cubicTo (o.x + r * kCircle) (o.y + r) (o.x + r) (o.y + r * kCircle) (o.x + r) o.y,
    .cubicTo (o.x + r) (o.y - r * kCircle) (o.x + r * kCircle) (o.y - r) o.x (o.y - r), .close]

end
end Clip
