import Verif.Model.Raster
/-!
# What an image shows (specification)
-/
namespace Clip.Raster
noncomputable section
variable {φ : Type}

/-- A point of a page of height `h`, whose `y` axis points up, on an image, whose `y` axis points down. -/
def onImage (h x y : ℝ) : Vec2 := ⟨x, h - y⟩

/-- An outline on the image: every point where it belongs, curves as curves. -/
def outline (h : ℝ) (p : Path) : Path := p.map fun
  | .moveTo x y => .moveTo x (h - y)
  | .lineTo x y => .lineTo x (h - y)
  | .quadTo a b x y => .quadTo a (h - b) x (h - y)
  | .cubicTo a b c d x y => .cubicTo a (h - b) c (h - d) x (h - y)
  | .close => .close

/-- A path without curves. -/
def Straight (p : Path) : Prop := ∀ c ∈ p, match c with
  | .quadTo .. => False
  | .cubicTo .. => False
  | _ => True

/-- What filling a shape should paint, given the outline that is to be filled. -/
def fillPaint (h : ℝ) (filled : Path) (c : Option Color) : List (Paint φ) :=
  match c with
  | some c => [.fill (outline h filled) c]
  | none => []

open Classical in
/-- What stroking a shape should paint: nothing for width zero, otherwise a line of this width and colour, solid or dashed. -/
def strokePaint (h : ℝ) (path : Path) (s : StrokeStyle) : List (Paint φ) :=
  if s.width = 0 then []
  else [.stroke (outline h path) s.color s.width (s.dash.getD (0, [])) ⟨1, 0, 0, 0, 1, 0, 0, 0, 1⟩]

/-- What a shape should paint: first its fill, which may be hatched, then its stroke. -/
def shapePaint (hatch : Path → FillHatch → Path) (h : ℝ) (c : FullCmd) : List (Paint φ) :=
  fillPaint h (match c.fill.hatch with
    | none => c.path
    | some (angle, offset, stride, width) => hatch c.path ⟨Color.black, angle, offset, stride, width⟩) c.fill.color ++
  strokePaint h c.path c.stroke

/-- What the picture should be: the background, and then the shapes in order. -/
def picture (hatch : Path → FillHatch → Path) (h : ℝ) (background : Color) (cs : List FullCmd) : List (Paint φ) :=
  .all background :: cs.flatMap (shapePaint hatch h)

/-- The path without its curves. -/
def straight (p : Path) : Path := p.filter fun
  | .quadTo .. => false
  | .cubicTo .. => false
  | _ => true

/-- What remains of a picture if all curves are left out. -/
def withoutCurves (ps : List (Paint φ)) : List (Paint φ) := ps.map fun
  | .fill p c => .fill (straight p) c
  | .stroke p c w d m => .stroke (straight p) c w d m
  | p => p

end
end Clip.Raster
