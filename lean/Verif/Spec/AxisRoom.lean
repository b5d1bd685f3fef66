import Verif.Spec.AxisDraw
import Verif.Spec.Defaults
/-!
# Axes and the room for them (specification)

Coordinates grow to the right and up.
-/
namespace Clip.AxisSpec
open Pictures PlotSpec
noncomputable section
variable {φ : Type}

/-- The points through which, or towards which, a path command draws. -/
def pointsOf : PathCmd → List Vec2
  | .moveTo x y => [⟨x, y⟩]
  | .lineTo x y => [⟨x, y⟩]
  | .quadTo a b x y => [⟨a, b⟩, ⟨x, y⟩]
  | .cubicTo a b c d x y => [⟨a, b⟩, ⟨c, d⟩, ⟨x, y⟩]
  | .close => []

/-- The points of a shape. -/
def inked (c : DrawCmd) : List Vec2 := c.path.flatMap pointsOf

/-- All fonts keep their promises: no advance is negative, and the outline of a glyph stays between the place where the
glyph begins and its advance, and between its descender and its ascender. -/
def Tidy (T : TextEnv φ) : Prop := ∀ f run sizePt dpi gs, T.shapeRun f run sizePt dpi = some gs → ∀ g ∈ gs,
  0 ≤ g.advance ∧ ∀ p, T.glyphPath g.glyph.1 sizePt dpi g.glyph.2 = some p → ∀ q ∈ p.flatMap pointsOf,
    0 ≤ q.x ∧ q.x ≤ g.advance ∧ g.descender ≤ q.y ∧ q.y ≤ g.ascender

/-- Nothing in the text is written from right to left, and there are no embeddings. -/
def LeftToRight (T : TextEnv φ) (text : Str) : Prop := ∀ levels, T.levels .ltr text = some levels → ∀ l ∈ levels, l = 0

/-- How far outside of the area `r` a point is, on the side of the area where the axis is. -/
def outside (r : Rect) (al : AxisAlign) (q : Vec2) : ℝ :=
  match al with
  | .top => q.y - (r.y + r.h)
  | .right => q.x - (r.x + r.w)
  | .bottom => r.y - q.y
  | .left => r.x - q.x
  | .x => 0
  | .y => 0

/-- The value of an offset option for the far side: 1 is above or to the right of the axis, -1 is below or to its left. -/
def Outer (al : AxisAlign) (offset : ℝ) : Prop :=
  match al with
  | .top | .right => 1 ≤ offset
  | .bottom | .left => offset ≤ -1
  | .x | .y => False

/-- The side of a label that faces the axis. -/
def facing : AxisAlign → AxisAttach
  | .top => .bottom
  | .right => .left
  | .bottom => .top
  | .left => .right
  | .x => .top
  | .y => .right

/-- The axis has its labels and its title on the outer side, labels are not turned, and face the axis. -/
structure Proper (a : AxisDef φ) : Prop where
  labels : Outer a.align a.labelOffset
  title : Outer a.align a.titleOffset
  straight : a.labelRotate = 0
  faces : a.labelAttach = facing a.align
  gap : 0 ≤ labelGap a
  titleGap : 0 ≤ titleGap a

/-- The picture of an axis is in two parts: the axis with its ticks, which are lines, and the texts, of which no point is
further inside than the edge of the area nor further outside than `room`. -/
def TextsWithin (al : AxisAlign) (area : Rect) (room : ℝ) (shapes : List DrawCmd) : Prop :=
  ∃ lines texts, shapes = lines ++ texts ∧ (∀ c ∈ lines, ∃ k p q, c = line k p q) ∧
    ∀ c ∈ texts, ∀ q ∈ inked c, 0 ≤ outside area al q ∧ outside area al q ≤ room

/-- The texts of an axis of an inner area stay between it and the outer area. -/
def TextsBetween (al : AxisAlign) (outer inner : Rect) (shapes : List DrawCmd) : Prop :=
  ∃ lines texts, shapes = lines ++ texts ∧ (∀ c ∈ lines, ∃ k p q, c = line k p q) ∧
    ∀ c ∈ texts, ∀ q ∈ inked c, 0 ≤ outside inner al q ∧ outside outer al q ≤ 0

end
end Clip.AxisSpec
