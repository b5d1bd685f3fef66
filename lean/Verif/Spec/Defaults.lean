import Verif.Spec.Options
/-!
# The settings of the plot elements before any option (specification)

Everything is written out: a setting that no option names has the value that is listed here.
-/
namespace Clip.Defaults
noncomputable section
variable {φ : Type}

/-- Points on the page, in pixels. -/
def pt (s : PlotState φ) (v : ℝ) : ℝ := v / 72 * s.layer.size.dpi

open Classical in
/-- The font size of the page, in pixels: it is in millimetres, points or pixels. -/
def em (s : PlotState φ) : ℝ :=
  if s.layer.size.fontSize.unit = .mm then s.layer.size.fontSize.value / 25.4 * s.layer.size.dpi
  else if s.layer.size.fontSize.unit = .pt then s.layer.size.fontSize.value / 72 * s.layer.size.dpi
  else if s.layer.size.fontSize.unit = .px then s.layer.size.fontSize.value
  else 0

def black : Color := ⟨0, 0, 0, 1⟩

/-- A solid black stroke. -/
def solid (width : ℝ) : StrokeState := ⟨width, black, false, ⟨.unit, 0⟩, []⟩

def noLength : Measure := ⟨.unit, 0⟩

def noData : DataBuffer (Option ℝ) := ⟨[], [], []⟩

def noRefs : DataRefs := ⟨[], [], none, none⟩

def noSeries : SeriesData := ⟨[], none, [], none⟩

/-- Black lines of 1.5pt, no markers, no labels. -/
def lines (s : PlotState φ) : LinesConf φ where
  refs := noRefs
  x := noData
  y := noData
  scales := s.scales
  groups := []
  stroke := solid (pt s 1.5)
  markerSize := 0
  markerShape := .disk
  markerColor := black
  labels := []
  labelFonts := s.layer.fonts
  labelColor := black
  labelPadding := 0
  labelFontSize := em s

/-- Black disks of 4pt. -/
def points (s : PlotState φ) : PointsConf φ where
  refs := noRefs
  x := noData
  y := noData
  scales := s.scales
  color := black
  series := noSeries
  colors := []
  size := pt s 4
  sizes := []
  shape := .disk
  shapes := []
  labels := []
  labelFonts := s.layer.fonts
  labelPadding := 0
  labelFontSize := em s
  labelColor := black

/-- Vertical black bars without an outline; a width of zero means that the width is computed. -/
def bars (s : PlotState φ) : BarsConf φ where
  direction := .vertical
  x := noData
  xoffset := noData
  y := noData
  yoffset := noData
  scales := s.scales
  stroke := solid 0
  fill := ⟨some black, none⟩
  size := 0
  sizes := []
  offset := 0
  offsets := []
  labels := []
  labelFonts := s.layer.fonts
  labelPadding := noLength
  labelFontSize := em s
  labelColor := black

/-- Vertical black areas without an outline. -/
def areas (s : PlotState φ) : AreasConf where
  refs := noRefs
  direction := .vertical
  x := noData
  xoffset := noData
  y := noData
  yoffset := noData
  scales := s.scales
  strokeHigh := solid 0
  strokeLow := solid 0
  fill := ⟨some black, none⟩

/-- Black error bars, 6pt wide, of lines of 1pt. -/
def errorbars (s : PlotState φ) : ErrorbarsConf where
  x := noData
  xLow := noData
  xHigh := noData
  y := noData
  yLow := noData
  yHigh := noData
  scales := s.scales
  barWidth := pt s 6
  series := noSeries
  colors := []
  strokeColor := black
  strokeWidth := pt s 1

/-- Black rectangles; a size of zero means that the sizes are data. -/
def rectangles (s : PlotState φ) : RectanglesConf where
  refs := noRefs
  x := noData
  y := noData
  scales := s.scales
  sizeX := noData
  sizeY := noData
  sizeXDefault := 0
  sizeYDefault := 0
  color := black
  series := noSeries
  colors := []

/-- Black arrows of lines of 1pt. -/
def vectors (s : PlotState φ) : VectorsConf where
  refs := noRefs
  x := noData
  y := noData
  dx := noData
  dy := noData
  scales := s.scales
  color := black
  series := noSeries
  colors := []
  size := pt s 1
  sizes := []

/-- Black labels. -/
def labels (s : PlotState φ) : LabelsConf φ where
  refs := noRefs
  x := noData
  y := noData
  scales := s.scales
  labels := []
  labelFonts := s.layer.fonts
  labelPadding := noLength
  labelFontSize := em s
  labelColor := black

/-- Polygons with a black outline of 1pt, not filled. -/
def polygons (s : PlotState φ) : PolygonsConf where
  polys := []
  scales := s.scales
  fill := ⟨none, none⟩
  stroke := solid (pt s 1)

/-- Light grey grid lines of 1pt. -/
def grid (s : PlotState φ) : GridConf where
  scales := s.scales
  layoutX := none
  layoutY := none
  stroke := ⟨pt s 1, ⟨0.9, 0.9, 0.9, 1⟩, false, ⟨.unit, 0⟩, []⟩

/-- A black border of 1pt, not filled. -/
def background (s : PlotState φ) : BackgroundConf where
  fill := ⟨none, none⟩
  stroke := solid (pt s 1)

/-- A black disk of three quarters of the font size before a black text. -/
def legendItem (s : PlotState φ) : LegendItem φ where
  label := []
  labelAlign := .left
  labelMargin := 1.1 * em s
  labelColor := black
  labelFonts := s.layer.fonts
  labelFontSize := em s
  marker := .disk
  markerAlign := .left
  markerMargin := 0.15 * em s
  markerColor := black
  markerSize := 0.75 * em s

/-- A legend at the top left, in rows, without border and background. -/
def legend (s : PlotState φ) : LegendConf φ where
  horiz := .left
  vert := .top
  rowPadding := 0.3 * em s
  columnPadding := 1.4 * em s
  flow := false
  margins := (0.6 * em s, 0.6 * em s, 0.6 * em s, 0.6 * em s)
  padding := (0.6 * em s, em s, 0.6 * em s, em s)
  borders := (solid 0, solid 0, solid 0, solid 0)
  background := none
  items := []

/-- Which way is away from the plot area: up for the top axis, to the right for the right axis.  The labels of the axis
`y` are to the right of it, those of the axis `x` below it. -/
def outward : AxisAlign → ℝ
  | .top | .right | .y => 1
  | .bottom | .left | .x => -1

/-- The side of a label by which it is attached: the one towards the axis; for the axis `y` it is the other one. -/
def labelSide : AxisAlign → AxisAttach
  | .top => .bottom
  | .bottom | .x => .top
  | .left | .y => .right
  | .right => .left

/-- Ticks are inside the plot area; those of the axis `x` are half on either side. -/
def tickSide : AxisAlign → ℝ
  | .top | .right | .y => -1
  | .bottom | .left => 1
  | .x => 0

/-- An axis of 1pt, in black, labels and title outside, the title of a vertical axis written upwards; no title. -/
def axis (s : PlotState φ) (al : AxisAlign) (scale : Scale) : AxisDef φ where
  align := al
  enable := true
  scale := scale
  title := []
  titleColor := black
  titleOffset := outward al
  titlePadding := noLength
  titleFonts := s.layer.fonts
  titleFontSize := em s
  titleRotate := match al with
    | .top | .bottom | .x => 0
    | .left | .right | .y => -90
  tickOffset := tickSide al
  tickLength := noLength
  tickPlacement := none
  labelPlacement := none
  labelFormat := none
  labelAttach := labelSide al
  labelOffset := outward al
  labelPadding := noLength
  labelRotate := 0
  labelFonts := s.layer.fonts
  labelFontSize := em s
  labelColor := black
  border := solid (pt s 1)

/-- A linear scale without limits. -/
def freshScale : Scale where
  kind := .linear
  min := none
  max := none
  logBase := 10
  inverted := false
  padding := 0
  hints := ⟨none, none⟩
  categories := []
  categoriesMap := fun _ => none

/-- Four axes with the scales of the plot, 1em inside the area. -/
def axes (s : PlotState φ) : AxesConf φ where
  top := axis s .top s.scales.x
  right := axis s .right s.scales.y
  bottom := axis s .bottom s.scales.x
  left := axis s .left s.scales.y
  margins := (em s, em s, em s, em s)

end
end Clip.Defaults
