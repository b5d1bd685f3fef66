import Verif.Spec.Pictures
import Verif.Spec.Plot
import Verif.Spec.Scale
import Verif.Model.Axis
/-!
# What an axis looks like (specification)

Coordinates grow to the right and up.
-/
namespace Clip.AxisSpec
open Pictures PlotSpec
noncomputable section
variable {φ : Type}

/-- The point of the axis at the fraction `u` of its length, for a plot area `r`. -/
def along (r : Rect) (al : AxisAlign) (u : ℝ) : Vec2 :=
  match al with
  | .top => at_ r u 1
  | .bottom => at_ r u 0
  | .x => at_ r u (1 / 2)
  | .right => at_ r 1 u
  | .left => at_ r 0 u
  | .y => at_ r (1 / 2) u

/-- The axis is horizontal. -/
def Horizontal : AxisAlign → Prop
  | .top | .bottom | .x => True
  | .right | .left | .y => False

/-- The point moved by `d` across the axis: up from a horizontal axis, to the right of a vertical one. -/
def across (al : AxisAlign) (d : ℝ) (p : Vec2) : Vec2 :=
  match al with
  | .top | .bottom | .x => ⟨p.x, p.y + d⟩
  | .right | .left | .y => ⟨p.x + d, p.y⟩

/-- The number, but not more than one away from zero. -/
def limited (v : ℝ) : ℝ := max (-1) (min 1 v)

/-- A length, or a default for a length of zero. -/
def orElse (m : Measure) (d : ℝ) : ℝ := open Classical in if m.value = 0 then d else m.value

open Classical in
/-- Nothing but a stroke. -/
def strokeOnly (k : StrokeState) : Compound :=
  if k.width = 0 then ⟨[], [], [], []⟩
  else if k.dashed then ⟨[], [], [], [⟨k.color, k.width, k.pattern.map (·.value), k.offset.value⟩]⟩
  else ⟨[], [], [⟨k.color, k.width⟩], []⟩

/-- A straight line. -/
def line (k : StrokeState) (p q : Vec2) : DrawCmd := ⟨polyline [p, q], strokeOnly k, false⟩

/-- A tick mark: its length is 4pt unless set; `tick-offset` 1 is above or to the right, -1 below or to the left of the
axis, 0 half on either side. -/
def tick (a : AxisDef φ) (dpi : ℝ) (r : Rect) (u : ℝ) : DrawCmd :=
  let len := orElse a.tickLength (4 / 72 * dpi)
  line a.border (across a.align (len * ((limited a.tickOffset - 1) / 2)) (along r a.align u))
    (across a.align (len * ((limited a.tickOffset + 1) / 2)) (along r a.align u))

/-- The shapes of a text that is turned clockwise about the point to which it is aligned. -/
def TurnedText (T : TextEnv φ) (fonts : List φ) (size dpi : ℝ) (text : Str) (point : Vec2) (ax : HAlign) (ay : VAlign)
    (angle : ℝ) (color : Color) (shapes : List DrawCmd) : Prop :=
  text ≠ [] ∧ ∃ straight, TextShapes T fonts size dpi text point ax ay ⟨[color], [], [], []⟩ straight ∧
    shapes = straight.map fun c => { c with path := c.path.map (onPoints (turned point angle)) }

/-- The edge of the text that is on the side `attach` is at the point. -/
def attached : AxisAttach → HAlign × VAlign
  | .left => (.left, .center)
  | .right => (.right, .center)
  | .top => (.center, .top)
  | .bottom => (.center, .bottom)

/-- The distance of labels from the axis. -/
def labelGap (a : AxisDef φ) : ℝ := orElse a.labelPadding (0.8 * a.labelFontSize)

/-- The point at which a label is. -/
def labelPoint (a : AxisDef φ) (r : Rect) (u : ℝ) : Vec2 :=
  across a.align (labelGap a * limited a.labelOffset) (along r a.align u)

/-- The shapes of a label. -/
def LabelShapes (T : TextEnv φ) (a : AxisDef φ) (dpi : ℝ) (r : Rect) (l : ℝ × Str) (shapes : List DrawCmd) : Prop :=
  TurnedText T a.labelFonts a.labelFontSize dpi l.2 (labelPoint a r l.1) (attached a.labelAttach).1
    (attached a.labelAttach).2 a.labelRotate a.labelColor shapes

/-- Width and height of a text, set as one run from left to right. -/
def Extents (T : TextEnv φ) (fonts : List φ) (size dpi : ℝ) (text : Str) (w h : ℝ) : Prop :=
  ∃ glyphs top bottom, Shaped (fun f => T.shapeRun f ⟨text, .ltr⟩ (size / dpi * 72) dpi) fonts glyphs ∧
    Top (glyphs.map (·.ascender)) top ∧ Bottom (glyphs.map (·.descender)) bottom ∧
    w = (glyphs.map (·.advance)).sum ∧ h = top - bottom

open Classical in
/-- Width and height of a box of the width `w` and height `h` that is turned by `angle` degrees. -/
def turnedSize (w h angle : ℝ) : ℝ × ℝ :=
  if angle = 0 then (w, h) else
  (abs (w * Real.cos (angle * Real.pi / 180)) + abs (h * Real.sin (angle * Real.pi / 180)),
   abs (w * Real.sin (angle * Real.pi / 180)) + abs (h * Real.cos (angle * Real.pi / 180)))

/-- How much of a size is across an axis. -/
def ofSize (al : AxisAlign) (s : ℝ × ℝ) : ℝ :=
  match al with
  | .top | .bottom | .x => s.2
  | .right | .left | .y => s.1

/-- The room across the axis that a text takes. -/
def Room (T : TextEnv φ) (fonts : List φ) (size dpi : ℝ) (angle : ℝ) (al : AxisAlign) (text : Str) (room : ℝ) : Prop :=
  ∃ w h, Extents T fonts size dpi text w h ∧ room = ofSize al (turnedSize w h angle)

/-- The room across the axis for its labels: that of the greatest. -/
def LabelRoom (T : TextEnv φ) (a : AxisDef φ) (dpi : ℝ) (labels : List (ℝ × Str)) (room : ℝ) : Prop :=
  ∃ rooms, List.Forall₂ (fun l x => Room T a.labelFonts a.labelFontSize dpi a.labelRotate a.align l.2 x) labels rooms ∧
    Top rooms room

/-- The room across the axis for its title. -/
def TitleRoom (T : TextEnv φ) (a : AxisDef φ) (dpi : ℝ) (room : ℝ) : Prop :=
  Room T a.titleFonts a.titleFontSize dpi a.titleRotate a.align a.title room

/-- The distance of the title from the axis or, on the same side, from the labels. -/
def titleGap (a : AxisDef φ) : ℝ :=
  open Classical in orElse a.titlePadding ((if Horizontal a.align then 0.8 else 0.6) * a.titleFontSize)

/-- Labels and title are on the same side of the axis. -/
def SameSide (a : AxisDef φ) : Prop := a.titleOffset < 0 ↔ a.labelOffset < 0

open Classical in
/-- The distance from the axis to the centre of the title. -/
def titleDistance (a : AxisDef φ) (labelRoom titleRoom : ℝ) : ℝ :=
  titleGap a + (if SameSide a then labelRoom + labelGap a else 0) + titleRoom / 2

/-- The point in the middle of the title. -/
def titlePoint (a : AxisDef φ) (r : Rect) (labelRoom titleRoom : ℝ) : Vec2 :=
  across a.align (titleDistance a labelRoom titleRoom * limited a.titleOffset) (along r a.align (1 / 2))

/-- The shapes of the title; an empty title is not drawn.  The room for it is measured as that across `al`. -/
def TitleShapesBy (al : AxisAlign) (T : TextEnv φ) (a : AxisDef φ) (dpi : ℝ) (r : Rect) (labelRoom : ℝ)
    (shapes : List DrawCmd) : Prop :=
  (a.title = [] ∧ shapes = []) ∨ ∃ room, Room T a.titleFonts a.titleFontSize dpi a.titleRotate al a.title room ∧
    TurnedText T a.titleFonts a.titleFontSize dpi a.title (titlePoint a r labelRoom room) .center .center a.titleRotate
      a.titleColor shapes

/-- The positions and texts that a placement gives. -/
def Layout (P : PlotEnv φ) (spec : TickSpec) (s : Scale) (fmt : Formatter) (positions : List ℝ) (texts : List Str) : Prop :=
  ∃ out rc, RunTicks P.toS spec s fmt {} (out, rc) ∧ out.positions = positions.map some ∧ out.labels = texts

/-- The placement of the labels: the one that was set, or that of the scale. -/
def labelPlacement (a : AxisDef φ) : TickSpec :=
  a.labelPlacement.getD (match a.scale.kind with
    | .categorical => .categorical
    | .logarithmic => .exponential a.scale.logBase
    | .linear => .subdivide 10)

open Classical in
/-- The placement of the ticks: the one that was set, or that of the scale; on linear scales that of the labels. -/
def tickPlacement (a : AxisDef φ) : TickSpec :=
  a.tickPlacement.getD (match a.scale.kind with
    | .categorical => .bounds
    | .logarithmic => if a.scale.logBase = 10 then .expSteps 10 10 else .exponential a.scale.logBase
    | .linear => labelPlacement a)

/-- The picture of an axis of a plot area: the axis, the ticks, the labels and the title, in this order.  The room for the
title is measured as that across `al`. -/
def AxisPictureBy (al : AxisAlign) (P : PlotEnv φ) (a : AxisDef φ) (fmt : Formatter) (dpi : ℝ) (r : Rect) (shapes : List DrawCmd) : Prop :=
  ∃ ticks tickTexts positions texts labelRoom labels title,
    Layout P (tickPlacement a) a.scale fmt ticks tickTexts ∧
    Layout P (labelPlacement a) a.scale fmt positions texts ∧ positions.length ≤ texts.length ∧
    LabelRoom P.text a dpi (positions.zip texts) labelRoom ∧
    List.Forall₂ (LabelShapes P.text a dpi r) (positions.zip texts) labels ∧
    TitleShapesBy al P.text a dpi r labelRoom title ∧
    shapes = line a.border (along r a.align 0) (along r a.align 1) :: ticks.map (tick a dpi r) ++ labels.flatten ++ title

/-- The picture of an axis, with the room that the title takes across the axis. -/
def AxisPicture (P : PlotEnv φ) (a : AxisDef φ) (fmt : Formatter) (dpi : ℝ) (r : Rect) (shapes : List DrawCmd) : Prop :=
  AxisPictureBy a.align P a fmt dpi r shapes

/-- How the room for the title is measured: of the axes in the middle of the plot (`align` `x` and `y`), along the axis
instead of across it. -/
def measured : AxisAlign → AxisAlign
  | .x => .left
  | .y => .bottom
  | al => al

/-- The room that an axis of the `axes` command takes from the plot area: none unless it is shown; else its labels with
their gap and, if there is one, the title with its gap. -/
def Reserved (P : PlotEnv φ) (a : AxisDef φ) (fmt : Formatter) (dpi : ℝ) (room : ℝ) : Prop :=
  (a.enable = false ∧ room = 0) ∨ (a.enable = true ∧ ∃ positions texts labelRoom,
    Layout P (labelPlacement a) a.scale fmt positions texts ∧ positions.length ≤ texts.length ∧
    LabelRoom P.text a dpi (positions.zip texts) labelRoom ∧
    ((a.title = [] ∧ room = labelGap a + labelRoom) ∨
     (a.title ≠ [] ∧ ∃ titleRoom, TitleRoom P.text a dpi titleRoom ∧ room = labelGap a + labelRoom + titleGap a + titleRoom)))

/-- The picture of an axis of the `axes` command: nothing unless it is shown. -/
def Shown (P : PlotEnv φ) (a : AxisDef φ) (fmt : Formatter) (dpi : ℝ) (r : Rect) (shapes : List DrawCmd) : Prop :=
  (a.enable = false ∧ shapes = []) ∨ (a.enable = true ∧ AxisPicture P a fmt dpi r shapes)

/-- A plot area without the given widths along its four sides. -/
def inset (r : Rect) (top right bottom left : ℝ) : Rect :=
  ⟨r.x + left, r.y + bottom, max (r.w - left - right) 0, max (r.h - top - bottom) 0⟩

end
end Clip.AxisSpec
