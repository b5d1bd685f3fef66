import Verif.Spec.Defaults
import Verif.Spec.AxisOptions
import Verif.Spec.LegendOptions
import Verif.Spec.LegendPicture
import Verif.Spec.Limits
/-!
# What a plot looks like (specification)

From the text of the `plot` command to the shapes on the page.  A plot is read twice.  First the scales get their settings,
and their automatic limits from the data of all elements; then the elements are drawn, in order.
-/
namespace Clip.Whole
open Settings Drawing Pictures PlotSpec AxisSpec DataSpec Elements Options LegendSpec
noncomputable section
variable {φ : Type}

/-! ## Settings of the elements -/

/-- All options are accepted; they turn the settings `start` into `o`, and these together with the data into `c`. -/
def Settled {α : Type} (takes : Takes) (means : List Expr → α → α → Prop) (loads : α → α → Prop) (start : α)
    (args : List Expr) (c : α) : Prop := Acceptable takes args ∧ ∃ o, means args start o ∧ loads o c

variable (P : PlotEnv φ) (s : PlotState φ) (args : List Expr)

def SettledLines : LinesConf φ → Prop :=
  Settled (linesTakes P (s.env P)) (LinesMeans P (s.env P)) (linesLoads P) (Defaults.lines s) args
def SettledPoints : PointsConf φ → Prop :=
  Settled (pointsTakes P (s.env P)) (PointsMeans P (s.env P)) (pointsLoads P) (Defaults.points s) args
def SettledBars : BarsConf φ → Prop :=
  Settled (barsTakes P (s.env P)) (BarsMeans P (s.env P)) barsLoads (Defaults.bars s) args
def SettledAreas : AreasConf → Prop :=
  Settled (areasTakes P (s.env P)) (AreasMeans P (s.env P)) (areasLoads P) (Defaults.areas s) args
def SettledErrorbars : ErrorbarsConf → Prop :=
  Settled (errorbarsTakes P (s.env P)) (ErrorbarsMeans P (s.env P)) (errorbarsLoads P) (Defaults.errorbars s) args
def SettledRectangles : RectanglesConf → Prop :=
  Settled (rectanglesTakes P (s.env P)) (RectanglesMeans P (s.env P)) (rectanglesLoads P) (Defaults.rectangles s) args
def SettledVectors : VectorsConf → Prop :=
  Settled (vectorsTakes P (s.env P)) (VectorsMeans P (s.env P)) (vectorsLoads P) (Defaults.vectors s) args
def SettledLabels : LabelsConf φ → Prop :=
  Settled (labelsTakes P (s.env P)) (LabelsMeans P (s.env P)) (labelsLoads P) (Defaults.labels s) args
def SettledGrid : GridConf → Prop :=
  Settled (gridTakes P (s.env P)) (GridMeans P (s.env P)) (fun o c => c = o) (Defaults.grid s) args
def SettledBackground : BackgroundConf → Prop :=
  Settled (backgroundTakes (s.env P)) (BackgroundMeans (s.env P)) (fun o c => c = o) (Defaults.background s) args
def SettledLegend : LegendConf φ → Prop :=
  Settled (legendTakes P (s.env P)) (LegendMeans P (s.env P) (Defaults.legendItem s)) (fun o c => c = o) (Defaults.legend s) args

/-- The settings of the four axes. -/
def SettledAxes (c : AxesConf φ) : Prop := (∀ e ∈ args, axesTakes P (s.env P) e) ∧ AxesMeans P (s.env P) args (Defaults.axes s) c

/-- The settings of an axis that stands alone: there is at least one option, unknown ones are skipped, and the scale is not
that of the plot. -/
def SettledAxis (a : AxisDef φ) : Prop :=
  args ≠ [] ∧ (∀ c ∈ args, Commands.isCommand c = true) ∧
  (∀ c ∈ args, ∀ n A, (n, A) ∈ ("align", Has (IsOneOf alignWords)) :: axisTakes P (s.env P) →
    nameOf c = some (String.toList n) → A (argsOf c)) ∧
  ∃ al, LastOf (IsOneOf alignWords) ["align"] args .x al ∧ AxisMeans P (s.env P) args (Defaults.axis s al Defaults.freshScale) a

/-! ## Automatic limits -/

/-- What a value counts for in the automatic limits: the number, or the number of the category (the first one is 0). -/
def CountsAs (sc : Scale) (d : Datum) (x : ℝ) : Prop :=
  (sc.kind ≠ .categorical ∧ (d = .number (some x) ∨ ∃ t, d = .text t ∧ P.parse t = some x)) ∨
  (sc.kind = .categorical ∧ ∃ i : ℕ, sc.categoriesMap (d.word P) = some i ∧ x = i)

/-- The numbers of a series. -/
def Counts (sc : Scale) (b : DataBuffer (Option ℝ)) (xs : List ℝ) : Prop :=
  ∃ vs, HasValues b vs ∧ List.Forall₂ (CountsAs P sc) vs xs

/-- A limit: the given one, if any, or a better one among the numbers. -/
def Best (Is : Set ℝ → ℝ → Prop) (old : Option ℝ) (xs : List ℝ) (new : Option ℝ) : Prop :=
  (old = none ∧ xs = [] ∧ new = none) ∨ ∃ m, new = some m ∧ Is ({x | old = some x} ∪ {x | x ∈ xs}) m

/-- The limits, extended to the numbers. -/
def Extended (h : LimitHints ℝ) (xs : List ℝ) (h' : LimitHints ℝ) : Prop :=
  Best IsLeast h.minValue xs h'.minValue ∧ Best IsGreatest h.maxValue xs h'.maxValue

/-- The scale, its automatic limits extended to the data. -/
def Fitted (bs : List (DataBuffer (Option ℝ))) (sc sc' : Scale) : Prop :=
  ∃ xss h, List.Forall₂ (Counts P sc) bs xss ∧ Extended sc.hints xss.flatten h ∧ sc' = { sc with hints := h }

/-- The corners of the outlines of polygons. -/
def corners (ps : List Poly2) : List Vec2 := ps.flatMap (·.boundary)

/-- Polygons with scales that are extended to their corners. -/
def polygonsLoads (o c : PolygonsConf) : Prop := ∃ hx hy, Extended o.scales.x.hints ((corners o.polys).map (·.x)) hx ∧
  Extended o.scales.y.hints ((corners o.polys).map (·.y)) hy ∧
  c = { o with scales := ⟨{ o.scales.x with hints := hx }, { o.scales.y with hints := hy }⟩ }

def SettledPolygons : PolygonsConf → Prop :=
  Settled (polygonsTakes P (s.env P)) (PolygonsMeans P (s.env P)) polygonsLoads (Defaults.polygons s) args

/-! ## The first reading -/

/-- Step of a plot: arguments, before, after. -/
abbrev Step (φ : Type) := List Expr → PlotState φ → PlotState φ → Prop

/-- An option of the horizontal scale. -/
def onScaleX (f : ReadEnv → Effect Scale) : Step φ := fun args s s' => ∃ x, f (s.env P) args s.scales.x x ∧
  s' = { s with scales := ⟨x, s.scales.y⟩ }

/-- An option of the vertical scale. -/
def onScaleY (f : ReadEnv → Effect Scale) : Step φ := fun args s s' => ∃ y, f (s.env P) args s.scales.y y ∧
  s' = { s with scales := ⟨s.scales.x, y⟩ }

/-- An element with these data: the scales are fitted. -/
def fits {α : Type} (settled : PlotEnv φ → PlotState φ → List Expr → α → Prop)
    (xs ys : α → List (DataBuffer (Option ℝ))) : Step φ := fun args s s' =>
  ∃ c x y, settled P s args c ∧ Fitted P (xs c) s.scales.x x ∧ Fitted P (ys c) s.scales.y y ∧ s' = { s with scales := ⟨x, y⟩ }

/-- What the parts of a plot do in the first reading. -/
def first : List (String × Step φ) := [
  ("limit-x", onScaleX P scaleLimits), ("limit-x-min", onScaleX P scaleMinimum), ("limit-x-max", onScaleX P scaleMaximum),
  ("limit-y", onScaleY P scaleLimits), ("limit-y-min", onScaleY P scaleMinimum), ("limit-y-max", onScaleY P scaleMaximum),
  ("scale-x", onScaleX P fun _ => ScaleWords P), ("scale-y", onScaleY P fun _ => ScaleWords P),
  ("scale-x-padding", onScaleX P scalePad), ("scale-y-padding", onScaleY P scalePad),
  ("areas", fits P SettledAreas (fun c => [c.x, c.xoffset]) fun c => [c.y, c.yoffset]),
  ("bars", fits P SettledBars (fun c => [c.x, c.xoffset]) fun c => [c.y, c.yoffset]),
  ("errorbars", fits P SettledErrorbars (fun c => [c.x, c.xLow, c.xHigh]) fun c => [c.y, c.yLow, c.yHigh]),
  ("labels", fits P SettledLabels (fun c => [c.x]) fun c => [c.y]),
  ("lines", fits P SettledLines (fun c => [c.x]) fun c => [c.y]),
  ("points", fits P SettledPoints (fun c => [c.x]) fun c => [c.y]),
  ("polygons", fun args s s' => ∃ c, SettledPolygons P s args c ∧
    s' = { s with scales := ⟨{ s.scales.x with hints := c.scales.x.hints }, { s.scales.y with hints := c.scales.y.hints }⟩ }),
  ("rectangles", fits P SettledRectangles (fun c => [c.x]) fun c => [c.y]),
  ("vectors", fits P SettledVectors (fun c => [c.x]) fun c => [c.y])]

/-! ## The second reading -/

/-- An element that draws shapes. -/
def draws (picture : PlotEnv φ → PlotState φ → List Expr → List DrawCmd → Prop) : Step φ := fun args s s' =>
  ∃ shapes, picture P s args shapes ∧ s' = { s with layer := draw s.layer shapes }

def LinesOf (shapes : List DrawCmd) : Prop := ∃ c us vs, SettledLines P s args c ∧
  Positions P c.scales.x c.x us ∧ Positions P c.scales.y c.y vs ∧ us.length = vs.length ∧
  (pieces c.groups (us.zip vs)).flatten = us.zip vs ∧ c.labels.length ≤ us.length ∧ LinesPicture P.text s c us vs shapes

def PointsOf (shapes : List DrawCmd) : Prop := ∃ c us vs, SettledPoints P s args c ∧
  Positions P c.scales.x c.x us ∧ Positions P c.scales.y c.y vs ∧ us.length = vs.length ∧ c.labels.length ≤ us.length ∧
  PointsPicture P.text s c us vs shapes

def LabelsOf (shapes : List DrawCmd) : Prop := ∃ c us vs, SettledLabels P s args c ∧
  Positions P c.scales.x c.x us ∧ Positions P c.scales.y c.y vs ∧ us.length = vs.length ∧ c.labels.length ≤ us.length ∧
  LabelsPicture P.text s c us vs shapes

def BarsOf (shapes : List DrawCmd) : Prop := ∃ c us vs lows, SettledBars P s args c ∧
  Positions P c.scales.x c.x us ∧ Positions P c.scales.y c.y vs ∧ us.length = vs.length ∧ c.labels.length ≤ us.length ∧
  ((c.direction = .vertical ∧ Lows P c.scales.y c.yoffset us.length lows ∧ ColumnsPicture P.text s c us vs lows shapes) ∨
   (c.direction = .horizontal ∧ Lows P c.scales.x c.xoffset us.length lows ∧ RowsPicture P.text s c us vs lows shapes))

def AreasOf (shapes : List DrawCmd) : Prop := ∃ c us vs uos vos lows, SettledAreas P s args c ∧
  Positions P c.scales.x c.x us ∧ Positions P c.scales.y c.y vs ∧ us.length = vs.length ∧
  Positions P c.scales.x c.xoffset uos ∧ Positions P c.scales.y c.yoffset vos ∧
  ((c.direction = .vertical ∧ Lows P c.scales.y c.yoffset us.length lows ∧
      AreaPicture c ((us.zip vs).map fun p => at_ s.clip p.1 p.2) ((us.zip lows).map fun p => at_ s.clip p.1 p.2) shapes) ∨
   (c.direction = .horizontal ∧ Lows P c.scales.x c.xoffset us.length lows ∧
      AreaPicture c ((us.zip vs).map fun p => at_ s.clip p.1 p.2) ((lows.zip vs).map fun p => at_ s.clip p.1 p.2) shapes))

def ErrorbarsOf (shapes : List DrawCmd) : Prop := ∃ c us ul uh vs vl vh, SettledErrorbars P s args c ∧
  (Positions P c.scales.x c.x us ∧ Positions P c.scales.x c.xLow ul ∧ Positions P c.scales.x c.xHigh uh) ∧
  (Positions P c.scales.y c.y vs ∧ Positions P c.scales.y c.yLow vl ∧ Positions P c.scales.y c.yHigh vh) ∧
  ((us ≠ [] ∧ vs = [] ∧ vl.length = us.length ∧ vh.length = us.length ∧ VerticalErrorbars s c us vl vh shapes) ∨
   (vs ≠ [] ∧ us = [] ∧ ul.length = vs.length ∧ uh.length = vs.length ∧ HorizontalErrorbars s c vs ul uh shapes))

def RectanglesOf (shapes : List DrawCmd) : Prop := ∃ c us vs ws hs, SettledRectangles P s args c ∧
  Positions P c.scales.x c.x us ∧ Positions P c.scales.y c.y vs ∧ us.length = vs.length ∧
  Lengths P c.scales.x c.sizeX ws ∧ Lengths P c.scales.y c.sizeY hs ∧ RectanglesPicture s c us vs ws hs shapes

def VectorsOf (shapes : List DrawCmd) : Prop := ∃ c us vs dus dvs, SettledVectors P s args c ∧
  Positions P c.scales.x c.x us ∧ Positions P c.scales.y c.y vs ∧ us.length = vs.length ∧
  Lengths P c.scales.x c.dx dus ∧ Lengths P c.scales.y c.dy dvs ∧ us.length ≤ dus.length ∧ vs.length ≤ dvs.length ∧
  VectorsPicture s c us vs dus dvs shapes

def GridOf (shapes : List DrawCmd) : Prop := ∃ c us vs tus tvs, SettledGrid P s args c ∧
  Layout P (gridPlacement c.layoutX c.scales.x) c.scales.x formatNoop us tus ∧
  Layout P (gridPlacement c.layoutY c.scales.y) c.scales.y formatNoop vs tvs ∧ GridPicture s c us vs shapes

def BackgroundOf (shapes : List DrawCmd) : Prop :=
  ∃ c, SettledBackground P s args c ∧ Shape c.stroke c.fill (area s.clip) shapes

/-- The texts of the labels of an axis: in the format that was chosen, or else categories as they are and numbers with one
decimal. -/
def labelText (P : PlotEnv φ) (a : AxisDef φ) : Formatter :=
  match a.labelFormat, a.scale.kind with
  | some f, _ => fun i v => (f.label P.stod P.strftime i v).getD []
  | none, .categorical => fun _ v => v
  | none, _ => fun i v => ((FormatSpec.fixed 1).label P.stod P.strftime i v).getD []

def LegendOf (shapes : List DrawCmd) : Prop := ∃ c, SettledLegend P s args c ∧ LegendPicture P s c shapes

def AxisOf (shapes : List DrawCmd) : Prop := ∃ a, SettledAxis P s args a ∧
  AxisPictureBy (measured a.align) P a (labelText P a) s.layer.size.dpi s.clip shapes

/-- Polygons are drawn, and the automatic limits of the plot extended to them (again). -/
def polygonsStep : Step φ := fun args s s' => ∃ c shapes, SettledPolygons P s args c ∧
  InOrder (c.polys.map (PolygonPart P s c)) shapes ∧
  s' = { s with
    layer := draw s.layer shapes
    scales := ⟨{ s.scales.x with hints := c.scales.x.hints }, { s.scales.y with hints := c.scales.y.hints }⟩ }

/-- The four axes: room is made for them, and what is inside is the area of the plot from now on. -/
def axesStep : Step φ := fun args s s' => ∃ c top right bottom left area dt dr db dl, SettledAxes P s args c ∧
  area = inset s.clip (c.margins.1 + top) (c.margins.2.1 + right) (c.margins.2.2.1 + bottom) (c.margins.2.2.2 + left) ∧
  (Reserved P c.top (labelText P c.top) s.layer.size.dpi top ∧ Shown P c.top (labelText P c.top) s.layer.size.dpi area dt) ∧
  (Reserved P c.right (labelText P c.right) s.layer.size.dpi right ∧
    Shown P c.right (labelText P c.right) s.layer.size.dpi area dr) ∧
  (Reserved P c.bottom (labelText P c.bottom) s.layer.size.dpi bottom ∧
    Shown P c.bottom (labelText P c.bottom) s.layer.size.dpi area db) ∧
  (Reserved P c.left (labelText P c.left) s.layer.size.dpi left ∧
    Shown P c.left (labelText P c.left) s.layer.size.dpi area dl) ∧
  s' = { s with layer := draw s.layer (dt ++ dr ++ db ++ dl), layout := s.layout ++ [area] }

/-- A margin of the page is set. -/
def marginStep (put : ℝ → ℝ × ℝ × ℝ × ℝ → ℝ × ℝ × ℝ × ℝ) : Step φ := fun args s s' =>
  ∃ v, IsSize (s.env P) args v ∧ s' = { s with margins := put v s.margins }

/-- What the parts of a plot do in the second reading. -/
def second : List (String × Step φ) := [
  ("margin", marginStep P fun v _ => (v, v, v, v)),
  ("margin-top", marginStep P fun v m => (v, m.2)),
  ("margin-right", marginStep P fun v m => (m.1, v, m.2.2)),
  ("margin-bottom", marginStep P fun v m => (m.1, m.2.1, v, m.2.2.2)),
  ("margin-left", marginStep P fun v m => (m.1, m.2.1, m.2.2.1, v)),
  ("axes", axesStep P),
  ("axis", draws P AxisOf),
  ("grid", draws P GridOf),
  ("background", draws P BackgroundOf),
  ("legend", draws P LegendOf),
  ("areas", draws P AreasOf),
  ("bars", draws P BarsOf),
  ("errorbars", draws P ErrorbarsOf),
  ("labels", draws P LabelsOf),
  ("lines", draws P LinesOf),
  ("points", draws P PointsOf),
  ("polygons", polygonsStep P),
  ("rectangles", draws P RectanglesOf),
  ("vectors", draws P VectorsOf)]

/-! ## The plot -/

/-- The parts of the plot are read in order.  Those that are not in the table are skipped. -/
inductive Reads (t : List (String × Step φ)) : List Expr → PlotState φ → PlotState φ → Prop
  | nil (s : PlotState φ) : Reads t [] s s
  | step {e : Expr} {es : List Expr} {s s₁ s' : PlotState φ} (n : String) (f : Step φ) : Commands.isCommand e = true → (n, f) ∈ t → nameOf e = some (String.toList n) →
      f (argsOf e) s s₁ → Reads t es s₁ s' → Reads t (e :: es) s s'
  | skip {e : Expr} {es : List Expr} {s s' : PlotState φ} : Commands.isCommand e = true → (∀ p ∈ t, nameOf e ≠ some (String.toList p.1)) → Reads t es s s' →
      Reads t (e :: es) s s'

/-- A plot on the page `L`, before anything is read. -/
def blank (L : Layer φ) : PlotState φ where
  layer := L
  scales := ⟨Defaults.freshScale, Defaults.freshScale⟩
  margins := (0, 0, 0, 0)
  layout := []

/-- The page `L` becomes `L'`. -/
def PlotOf (cmds : List Expr) (L L' : Layer φ) : Prop :=
  ∃ s s', Reads (first P) cmds (blank L) s ∧ Reads (second P) cmds s s' ∧ L' = s'.layer

end
end Clip.Whole
