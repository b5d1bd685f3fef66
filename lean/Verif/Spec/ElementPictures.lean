import Verif.Spec.AxisDraw
import Verif.Spec.Data
import Verif.Model.PlotConf
/-!
# What the elements of a plot look like (specification)

From the values of the data to the shapes on the page.  Coordinates grow to the right and up.
-/
namespace Clip.Elements
open Pictures PlotSpec AxisSpec DataSpec
noncomputable section
variable {φ : Type}

/-! ## Where values stand -/

/-- A value of a series. -/
inductive Datum where
  | number (v : Option ℝ)
  | text (t : Str)

/-- The values of a series, in order. -/
def HasValues (b : DataBuffer (Option ℝ)) (vs : List Datum) : Prop :=
  List.Forall₂ (fun i v => (i.1 = true ∧ ∃ x, b.numeric[i.2]? = some x ∧ v = .number x) ∨
    (i.1 = false ∧ ∃ t, b.text[i.2]? = some t ∧ v = .text t)) b.index vs

/-- The value as a text. -/
def Datum.word (P : PlotEnv φ) : Datum → Str
  | .number v => P.toS v
  | .text t => t

/-- The value is a number or the text of a number. -/
def Datum.IsNumber (P : PlotEnv φ) (d : Datum) (x : ℝ) : Prop :=
  d = .number (some x) ∨ ∃ t, d = .text t ∧ isNumber t = true ∧ P.parse t = some x

/-- The lower limit of a scale: the one that is set, or that of the data less the padding, or 0. -/
def lower (s : Scale) : ℝ := s.min.getD ((s.hints.minValue.map (· - s.padding)).getD 0)

/-- The upper limit of a scale: the one that is set, or that of the data and the padding, or 1. -/
def upper (s : Scale) : ℝ := s.max.getD ((s.hints.maxValue.map (· + s.padding)).getD 1)

/-- From the other end, on an inverted scale. -/
def flipped (s : Scale) (u : ℝ) : ℝ := if s.inverted then 1 - u else u

/-- The logarithm; that of 0 is taken to be 0. -/
def LogOf (base x y : ℝ) : Prop :=
  (x = 0 ∧ y = 0) ∨ (0 < x ∧ 0 < base ∧ base ≠ 1 ∧ y = Real.log x / Real.log base)

/-- The fraction of the scale at which category number `i` of `n` stands. -/
def CategoryAt (s : Scale) (i : Nat) (u : ℝ) : Prop :=
  let n := s.categories.length
  n ≠ 0 ∧ (n - 1 + 2 * s.padding : ℝ) ≠ 0 ∧ u = ((min i (n - 1) : ℕ) + s.padding) / (n - 1 + 2 * s.padding)

/-- The value stands at the fraction `u` of the scale. -/
inductive StandsAt (P : PlotEnv φ) (s : Scale) (v : Datum) (u : ℝ) : Prop
  | linear {x} : s.kind = .linear → v.IsNumber P x → lower s ≠ upper s →
      u = flipped s ((x - lower s) / (upper s - lower s)) → StandsAt P s v u
  | logarithmic {x a b l} : s.kind = .logarithmic → v.IsNumber P x → 0 < x → LogOf s.logBase (lower s) a →
      LogOf s.logBase (upper s) b → LogOf s.logBase x l → a ≠ b → u = flipped s ((l - a) / (b - a)) → StandsAt P s v u
  | nonpositive {x} : s.kind = .logarithmic → v.IsNumber P x → x ≤ 0 → u = 0 → StandsAt P s v u
  | category {i} : s.kind = .categorical → s.categoriesMap (v.word P) = some i → CategoryAt s i u → StandsAt P s v u

/-- The fractions of the scale at which the values of a series stand. -/
def Positions (P : PlotEnv φ) (s : Scale) (b : DataBuffer (Option ℝ)) (us : List ℝ) : Prop :=
  ∃ vs, HasValues b vs ∧ List.Forall₂ (StandsAt P s) vs us

/-- Where a number is on a scale; on a categorical one, it is the number of the category (the first one is 0). -/
def PlaceOf (P : PlotEnv φ) (s : Scale) (x u : ℝ) : Prop :=
  (s.kind = .categorical ∧ CategoryAt s ⌊x⌋₊ u) ∨ (s.kind ≠ .categorical ∧ StandsAt P s (.number (some x)) u)

/-- The same, but not outside of the plot. -/
def InsidePlace (P : PlotEnv φ) (s : Scale) (x u : ℝ) : Prop := ∃ a, PlaceOf P s x a ∧ u = max 0 (min 1 a)

/-- The fraction of the scale from which bars and areas begin: where 0 is, but not outside of the plot. -/
def BaseLine (P : PlotEnv φ) (s : Scale) (z : ℝ) : Prop := InsidePlace P s 0 z

/-- Lengths in units of the data, as fractions of the scale (of the distance of its limits, even on a logarithmic one); on a
categorical scale, any number means the whole. -/
def Lengths (P : PlotEnv φ) (s : Scale) (b : DataBuffer (Option ℝ)) (ms : List ℝ) : Prop :=
  ∃ vs, HasValues b vs ∧ List.Forall₂ (fun v m => ∃ x, (v = .number (some x) ∨ ∃ t, v = .text t ∧ P.parse t = some x) ∧
    ((s.kind = .categorical ∧ m = 1) ∨ (s.kind ≠ .categorical ∧ lower s ≠ upper s ∧ m = x / (upper s - lower s)))) vs ms

/-! ## Shapes -/

/-- A picture made of parts, one drawn after the other. -/
def InOrder (parts : List (List DrawCmd → Prop)) (shapes : List DrawCmd) : Prop :=
  ∃ pictures, List.Forall₂ (fun part picture => part picture) parts pictures ∧ shapes = pictures.flatten

open Classical in
/-- The style of a shape that is filled and has a border: nothing is filled without a colour, and there is no border of the
width 0. -/
def styled (k : StrokeState) (f : FillStyle) : Compound where
  fillSolid := match f with
    | ⟨some c, none⟩ => [c]
    | _ => []
  fillHatch := match f with
    | ⟨some c, some (angle, offset, stride, width)⟩ => [⟨c, angle, offset, stride, width⟩]
    | _ => []
  strokeSolid := if k.width ≠ 0 ∧ k.dashed = false then [⟨k.color, k.width⟩] else []
  strokeDash := if k.width ≠ 0 ∧ k.dashed = true then [⟨k.color, k.width, k.pattern.map (·.value), k.offset.value⟩] else []

/-- One shape, and nothing else. -/
def Shape (k : StrokeState) (f : FillStyle) (p : Path) (shapes : List DrawCmd) : Prop := shapes = [⟨p, styled k f, false⟩]

/-- A filled shape. -/
def Filled (color : Color) (p : Path) (shapes : List DrawCmd) : Prop := shapes = [⟨p, ⟨[color], [], [], []⟩, false⟩]

open Classical in
/-- A solid line. -/
def Line (width : ℝ) (color : Color) (p : Path) (shapes : List DrawCmd) : Prop :=
  shapes = [⟨p, ⟨[], [], if width = 0 then [] else [⟨color, width⟩], []⟩, false⟩]

/-- A line of text; there is no empty one. -/
def Text (T : TextEnv φ) (fonts : List φ) (size dpi : ℝ) (color : Color) (text : Str) (point : Vec2) (ax : HAlign)
    (ay : VAlign) (shapes : List DrawCmd) : Prop :=
  text ≠ [] ∧ TextShapes T fonts size dpi text point ax ay ⟨[color], [], [], []⟩ shapes

/-- A marker. -/
def MarkerAt (T : TextEnv φ) (fonts : List φ) (dpi : ℝ) (m : Marker) (point : Vec2) (size : ℝ) (color : Color)
    (shapes : List DrawCmd) : Prop :=
  match markerDraw m point size with
  | .filled p => Filled color p shapes
  | .stroked p w => Line w color p shapes
  | .text t pos ax ay fs => Text T fonts fs dpi color t pos ax ay shapes

/-- An arrow: a line and a triangle over its end, the tip of which is in the direction of the arrow. -/
def Arrow (p q : Vec2) (size : ℝ) (color : Color) (shapes : List DrawCmd) : Prop :=
  ∃ d : Vec2, d.x ^ 2 + d.y ^ 2 = 1 ∧ (∃ m > 0, q.x - p.x = m * d.x ∧ q.y - p.y = m * d.y) ∧
    InOrder [Line size color (polyline [p, q]), Filled color (ring [⟨q.x + 2 * size * d.y, q.y - 2 * size * d.x⟩,
      ⟨q.x - 2 * size * d.y, q.y + 2 * size * d.x⟩, ⟨q.x + 4 * size * d.x, q.y + 4 * size * d.y⟩])] shapes

/-- An error bar: a line with a cap at either end, centred and perpendicular. -/
def ErrorBar (p q : Vec2) (capWidth width : ℝ) (color : Color) (shapes : List DrawCmd) : Prop :=
  p ≠ q ∧ ∃ o : Vec2, o.x ^ 2 + o.y ^ 2 = 1 ∧ (∃ m > 0, q.y - p.y = m * o.x ∧ p.x - q.x = m * o.y) ∧
    InOrder [Line width color (polyline [p, q]),
      Line width color (polyline [⟨p.x - capWidth / 2 * o.x, p.y - capWidth / 2 * o.y⟩,
        ⟨p.x + capWidth / 2 * o.x, p.y + capWidth / 2 * o.y⟩]),
      Line width color (polyline [⟨q.x - capWidth / 2 * o.x, q.y - capWidth / 2 * o.y⟩,
        ⟨q.x + capWidth / 2 * o.x, q.y + capWidth / 2 * o.y⟩])] shapes

/-- The box with these centre and size. -/
def box (o : Vec2) (w h : ℝ) : Path :=
  ring [⟨o.x + w / 2, o.y + h / 2⟩, ⟨o.x + w / 2, o.y - h / 2⟩, ⟨o.x - w / 2, o.y - h / 2⟩, ⟨o.x - w / 2, o.y + h / 2⟩]

/-- Entry `i` of a list that is repeated, or the default for an empty list. -/
def nth {α : Type} (dflt : α) (l : List α) (i : Nat) : α := (l[i % l.length]?).getD dflt

/-- The point moved up. -/
def up (d : ℝ) (p : Vec2) : Vec2 := ⟨p.x, p.y + d⟩

/-- The point moved to the right. -/
def right (d : ℝ) (p : Vec2) : Vec2 := ⟨p.x + d, p.y⟩

open Classical in
/-- A length, or another one for a length of 0. -/
def lengthOr (v d : ℝ) : ℝ := if v = 0 then d else v

/-! ## The elements

`T`: fonts, `s`: the plot in which the element is, `us`, `vs`: positions on the horizontal and vertical scale. -/

open Classical in
/-- Lines: a line through the points of each series; markers, if they have a size; labels above the points. -/
def LinesPicture (T : TextEnv φ) (s : PlotState φ) (c : LinesConf φ) (us vs : List ℝ) : List DrawCmd → Prop :=
  let dpi := s.layer.size.dpi
  InOrder (((pieces c.groups (us.zip vs)).map fun ps => Shape c.stroke .default (seriesPath s.clip ps)) ++
    (if 0 < c.markerSize then (us.zip vs).map fun p =>
      MarkerAt T s.layer.fonts dpi c.markerShape (at_ s.clip p.1 p.2) c.markerSize c.markerColor else []) ++
    (c.labels.zip (us.zip vs)).map fun q => Text T c.labelFonts c.labelFontSize dpi c.labelColor q.1
      (up (c.markerSize + lengthOr c.labelPadding (0.4 * c.labelFontSize)) (at_ s.clip q.2.1 q.2.2)) .center .bottom)

/-- Points: a marker for each, then the labels above them; the distance of the label is without the default size. -/
def PointsPicture (T : TextEnv φ) (s : PlotState φ) (c : PointsConf φ) (us vs : List ℝ) : List DrawCmd → Prop :=
  let dpi := s.layer.size.dpi
  InOrder (((us.zip vs).mapIdx fun i p => MarkerAt T s.layer.fonts dpi (nth c.shape c.shapes i) (at_ s.clip p.1 p.2)
      (nth c.size c.sizes i) (nth c.color c.colors i)) ++
    (c.labels.zip (us.zip vs)).mapIdx fun i q => Text T c.labelFonts c.labelFontSize dpi c.labelColor q.1
      (up (nth 0 c.sizes i / 2 + lengthOr c.labelPadding (0.2 * c.labelFontSize)) (at_ s.clip q.2.1 q.2.2)) .center .bottom)

/-- Vertical bars between the positions `lows` and `vs`, of a width (10pt by default) and moved to the right by an offset,
and the labels above their ends. -/
def ColumnsPicture (T : TextEnv φ) (s : PlotState φ) (c : BarsConf φ) (us vs lows : List ℝ) : List DrawCmd → Prop :=
  let dpi := s.layer.size.dpi
  let width := nth (lengthOr c.size (10 / 72 * dpi)) (c.sizes.map (·.value))
  let offset := nth c.offset (c.offsets.map (·.value))
  InOrder (((us.zip (vs.zip lows)).mapIdx fun i p => Shape c.stroke c.fill (ring (vbar
      ((at_ s.clip p.1 0).x + offset i) (width i) (at_ s.clip 0 p.2.2).y (at_ s.clip 0 p.2.1).y))) ++
    (c.labels.zip (us.zip vs)).mapIdx fun i q => Text T c.labelFonts c.labelFontSize dpi c.labelColor q.1
      (up (orElse c.labelPadding (0.6 * c.labelFontSize)) (right (offset i) (at_ s.clip q.2.1 q.2.2))) .center .bottom)

/-- Horizontal bars between the positions `lows` and `us`, moved down by an offset, and the labels at the right of their
ends. -/
def RowsPicture (T : TextEnv φ) (s : PlotState φ) (c : BarsConf φ) (us vs lows : List ℝ) : List DrawCmd → Prop :=
  let dpi := s.layer.size.dpi
  let width := nth (lengthOr c.size (10 / 72 * dpi)) (c.sizes.map (·.value))
  let offset := nth c.offset (c.offsets.map (·.value))
  InOrder (((vs.zip (us.zip lows)).mapIdx fun i p => Shape c.stroke c.fill (ring ((vbar
      ((at_ s.clip 0 p.1).y - offset i) (width i) (at_ s.clip p.2.2 0).x (at_ s.clip p.2.1 0).x).map fun q => ⟨q.y, q.x⟩))) ++
    (c.labels.zip (us.zip vs)).mapIdx fun i q => Text T c.labelFonts c.labelFontSize dpi c.labelColor q.1
      (right (orElse c.labelPadding (0.6 * c.labelFontSize)) (up (-offset i) (at_ s.clip q.2.1 q.2.2))) .left .center)

/-- The other ends of bars and areas: those given, or the base line. -/
def Lows (P : PlotEnv φ) (s : Scale) (b : DataBuffer (Option ℝ)) (n : Nat) (lows : List ℝ) : Prop :=
  ∃ os z, Positions P s b os ∧ BaseLine P s z ∧ lows = if os = [] then List.replicate n z else os

/-- Areas: what is between the points `high` and the points `low`, and the two lines. -/
def AreaPicture (c : AreasConf) (high low : List Vec2) : List DrawCmd → Prop :=
  InOrder [Shape .default c.fill (ring (high ++ low.reverse)), Shape c.strokeHigh .default (polyline high),
    Shape c.strokeLow .default (polyline low.reverse)]

/-- Rectangles: centred at the points; without antialiasing. -/
def RectanglesPicture (s : PlotState φ) (c : RectanglesConf) (us vs ws hs : List ℝ) : List DrawCmd → Prop :=
  InOrder ((us.zip vs).mapIdx fun i p shapes => shapes = [⟨box (at_ s.clip p.1 p.2)
    (nth c.sizeXDefault (ws.map (· * s.clip.w)) i) (nth c.sizeYDefault (hs.map (· * s.clip.h)) i),
    ⟨[nth c.color c.colors i], [], [], []⟩, true⟩])

/-- Vectors: arrows from the points. -/
def VectorsPicture (s : PlotState φ) (c : VectorsConf) (us vs dus dvs : List ℝ) : List DrawCmd → Prop :=
  InOrder (((us.zip vs).zip (dus.zip dvs)).mapIdx fun i p => Arrow (at_ s.clip p.1.1 p.1.2)
    (at_ s.clip (p.1.1 + p.2.1) (p.1.2 + p.2.2)) (nth c.size c.sizes i) (nth c.color c.colors i))

/-- Vertical error bars, between the positions `lo` and `hi`. -/
def VerticalErrorbars (s : PlotState φ) (c : ErrorbarsConf) (us lo hi : List ℝ) : List DrawCmd → Prop :=
  InOrder ((us.zip (lo.zip hi)).mapIdx fun i p => ErrorBar (at_ s.clip p.1 p.2.1) (at_ s.clip p.1 p.2.2) c.barWidth
    c.strokeWidth (nth c.strokeColor c.colors i))

/-- Horizontal error bars, between the positions `lo` and `hi`.  Their right ends are too high, by the difference of the
margins of the plot at the left and at the bottom. -/
def HorizontalErrorbars (s : PlotState φ) (c : ErrorbarsConf) (vs lo hi : List ℝ) : List DrawCmd → Prop :=
  InOrder ((vs.zip (lo.zip hi)).mapIdx fun i p => ErrorBar (at_ s.clip p.2.1 p.1)
    (up (s.clip.x - s.clip.y) (at_ s.clip p.2.2 p.1)) c.barWidth c.strokeWidth (nth c.strokeColor c.colors i))

/-- Labels, at a distance below the points they belong to, as if the plot were upside down. -/
def LabelsPicture (T : TextEnv φ) (s : PlotState φ) (c : LabelsConf φ) (us vs : List ℝ) : List DrawCmd → Prop :=
  InOrder ((c.labels.zip (us.zip vs)).map fun q => Text T c.labelFonts c.labelFontSize s.layer.size.dpi c.labelColor q.1
    (up (-orElse c.labelPadding (0.8 * c.labelFontSize)) (at_ s.clip q.2.1 (1 - q.2.2))) .center .bottom)

/-- A closed line, if there are points. -/
def outline (vs : List Vec2) : Path := if vs.isEmpty then [] else ring vs

/-- Polygons: the corners of the outlines are moved into the plot; the holes are not moved at all. -/
def PolygonPart (P : PlotEnv φ) (s : PlotState φ) (c : PolygonsConf) (p : Poly2) (shapes : List DrawCmd) : Prop :=
  ∃ corners, List.Forall₂ (fun (v : Vec2) (q : Vec2) => ∃ u w, InsidePlace P c.scales.x v.x u ∧
      InsidePlace P c.scales.y v.y w ∧ q = at_ s.clip u w) p.boundary corners ∧
    Shape c.stroke c.fill (outline corners ++ (p.holes.map outline).flatten) shapes

open Classical in
/-- The placement of grid lines: the one that was set, or that of the scale. -/
def gridPlacement (set : Option TickSpec) (s : Scale) : TickSpec :=
  set.getD (match s.kind with
    | .categorical => .bounds
    | .logarithmic => if s.logBase = 10 then .expSteps 10 10 else .exponential s.logBase
    | .linear => .subdivide 10)

/-- Grid lines at the positions `us` of the horizontal and `vs` of the vertical scale; the latter are upside down. -/
def GridPicture (s : PlotState φ) (c : GridConf) (us vs : List ℝ) : List DrawCmd → Prop :=
  InOrder ((us.map fun u => Shape c.stroke .default (polyline [at_ s.clip u 0, at_ s.clip u 1])) ++
    vs.map fun v => Shape c.stroke .default (polyline [at_ s.clip 0 (1 - v), at_ s.clip 1 (1 - v)]))

/-- The whole plot area. -/
def area (r : Rect) : Path := ring [at_ r 0 0, at_ r 0 1, at_ r 1 1, at_ r 1 0]

end
end Clip.Elements
