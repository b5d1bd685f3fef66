import Verif.Spec.Pictures
import Verif.Spec.Placement
import Verif.Model.PlotModule
/-!
# What the options of the plot elements mean (specification)

An element has settings.  For every setting there is a list of the options that act on it, with the effect of each; all
other options leave it alone.  Colours, sizes, numbers, fills and strokes are those of `Spec/Drawing`; data, markers, colour
maps, formats and the like are what the readers of the other properties make of the arguments.
-/
namespace Clip.Options
open Settings Drawing Pictures
noncomputable section

/-- What an option does to a setting: arguments, value before, value after. -/
abbrev Effect (α : Type) := List Expr → α → α → Prop

/-- The option sets the value, whatever it was. -/
def sets {α : Type} (R : List Expr → α → Prop) : Effect α := fun args _ b => R args b

/-- The block of options turns the value `a` of a setting into `b`: each option in the list acts on it, in order. -/
inductive Acts {α : Type} (t : List (String × Effect α)) : List Expr → α → α → Prop
  | nil (a) : Acts t [] a a
  | act {c cs a b d n f} : nameOf c = some (String.toList n) → (n, f) ∈ t → f (argsOf c) a b → Acts t cs b d →
      Acts t (c :: cs) a d
  | skip {c cs a d} : (∀ p ∈ t, nameOf c ≠ some (String.toList p.1)) → Acts t cs a d → Acts t (c :: cs) a d

/-- The last of the options with one of these names counts. -/
def LastOf {α : Type} (R : List Expr → α → Prop) (names : List String) (cmds : List Expr) (a b : α) : Prop :=
  Acts (names.map fun n => (n, sets R)) cmds a b

/-- All options have one of these names. -/
def Known (names : List String) (cmds : List Expr) : Prop :=
  ∀ c ∈ cmds, ∃ n ∈ names, nameOf c = some (String.toList n)

variable {φ : Type} (P : PlotEnv φ) (E : ReadEnv)

/-- The first argument is a number with a unit; the unit is kept. -/
def IsMeasure (args : List Expr) (m : Measure) : Prop :=
  ∃ s, IsText args s ∧ parseMeasure P.stod s = .ok m

/-- The first argument is one of the words. -/
def IsOneOf {α : Type} (words : List (String × α)) (args : List Expr) (v : α) : Prop :=
  ∃ w, IsText args (String.toList w) ∧ (w, v) ∈ words

/-- A font is put before the others. -/
def AddFont (args : List Expr) (a b : List φ) : Prop := ∃ t f, IsText args t ∧ P.text.loadFont t = some f ∧ b = f :: a

/-- Texts: listed (they replace the ones before), or a column of a CSV file (added to the ones before). -/
def Texts (args : List Expr) (a b : List Str) : Prop :=
  (exprIsListHead args "csv".toList = false ∧ exprToStrings args = .ok b) ∨
  (exprIsListHead args "csv".toList = true ∧
    ∃ vs, dataLoadCsvColumn P.readFile (exprListTail args) = (vs, .ok ()) ∧ b = a ++ vs)

/-- Data values: added to the ones before. -/
def AddData (args : List Expr) (a b : DataBuffer (Option ℝ)) : Prop :=
  ∃ vs, dataLoadSimple P.readFile args = (vs, .ok ()) ∧ b = databufAddTexts a vs

/-- Lengths in user units from a column of a CSV file of numbers: added to the ones before. -/
def AddLengths (args : List Expr) (a b : List Measure) : Prop :=
  ∃ es rest vs ns, args = .list (.literal "csv".toList :: es) :: rest ∧ dataLoadCsvColumn P.readFile es = (vs, .ok ()) ∧
    List.Forall₂ (fun v (n : ℝ) => ∃ k, P.stod v = some (n, k)) vs ns ∧ b = a ++ ns.map fun n => ⟨.user, n⟩

def strokeColor (args : List Expr) (a b : StrokeState) : Prop := ∃ c, IsColor E args c ∧ b = { a with color := c }
def strokeWidth (args : List Expr) (a b : StrokeState) : Prop := ∃ v, IsSize E args v ∧ b = { a with width := v }
/-- The style; the dash offset is kept for later dashes while the line is not dashed. -/
def strokeStyle (args : List Expr) (a b : StrokeState) : Prop :=
  StrokeStyleMeans E 1 a.offset.value args a.style b.style ∧ (b.dashed = false → b.offset.value = a.offset.value)
def fillStyle (args : List Expr) (a b : FillStyle) : Prop := FillStyleMeans E 1 args a b
def fillColor (args : List Expr) (a b : FillStyle) : Prop := ∃ c, IsColor E args c ∧ b = { a with color := some c }

/-! ## Scales -/

/-- One word of a scale setting. -/
inductive ScaleWord : Expr → Scale → Scale → Prop
  | linear {e s} : IsWord e "linear" → ScaleWord e s { s with kind := .linear }
  | log {e s} : IsWord e "log" ∨ IsWord e "logarithmic" → ScaleWord e s { s with kind := .logarithmic }
  | logBase {k a as s b} : IsWord k "log" ∨ IsWord k "logarithmic" → exprToFloat P.stod a = .ok b →
      ScaleWord (.list (k :: a :: as)) s { s with kind := .logarithmic, logBase := b }
  | invert {e s} : IsWord e "invert" ∨ IsWord e "inverted" → ScaleWord e s { s with inverted := true }
  | categorical {e s} : IsWord e "categorical" → ScaleWord e s { s with kind := .categorical, padding := 1 / 2 }
  | categories {k args s cats} : IsWord k "categorical" → Texts P args s.categories cats →
      ScaleWord (.list (k :: args)) s
        { s with kind := .categorical, padding := 1 / 2, categories := cats,
                 categoriesMap := buildCategories cats 0 s.categoriesMap }

/-- The words of a scale setting, in order. -/
inductive ScaleWords : List Expr → Scale → Scale → Prop
  | nil (s) : ScaleWords [] s s
  | cons {e es s s₁ s'} : ScaleWord P e s s₁ → ScaleWords es s₁ s' → ScaleWords (e :: es) s s'

def scaleLimits (args : List Expr) (a b : Scale) : Prop :=
  ∃ x y lo hi, args = [x, y] ∧ exprToFloat E.stod x = .ok lo ∧ exprToFloat E.stod y = .ok hi ∧
    b = { a with min := some lo, max := some hi }
def scaleMinimum (args : List Expr) (a b : Scale) : Prop := ∃ v, IsNumber E args v ∧ b = { a with min := some v }
def scaleMaximum (args : List Expr) (a b : Scale) : Prop := ∃ v, IsNumber E args v ∧ b = { a with max := some v }
def scalePad (args : List Expr) (a b : Scale) : Prop := ∃ v, IsNumber E args v ∧ b = { a with padding := v }

/-- The options that act on the horizontal scale. -/
def scaleX : List (String × Effect Scale) := [("limit-x", scaleLimits E), ("limit-x-min", scaleMinimum E),
  ("limit-x-max", scaleMaximum E), ("scale-x", ScaleWords P), ("scale-x-padding", scalePad E)]

/-- The options that act on the vertical scale. -/
def scaleY : List (String × Effect Scale) := [("limit-y", scaleLimits E), ("limit-y-min", scaleMinimum E),
  ("limit-y-max", scaleMaximum E), ("scale-y", ScaleWords P), ("scale-y-padding", scalePad E)]

/-- The options for scales. -/
def scaleNames : List String := ["limit-x", "limit-x-min", "limit-x-max", "limit-y", "limit-y-min", "limit-y-max",
  "scale-x", "scale-y", "scale-x-padding", "scale-y-padding"]

/-- The options for data given by file and columns. -/
def dataNames : List String := ["data", "data-format", "data-x", "data-y"]

/-- The settings for data given by file and columns. -/
structure DataMeans (cmds : List Expr) (a b : DataRefs) : Prop where
  path : LastOf IsText ["data"] cmds a.path b.path
  format : LastOf IsText ["data-format"] cmds a.format b.format
  x : LastOf (fun args v => v = args.head?) ["data-x"] cmds a.refX b.refX
  y : LastOf (fun args v => v = args.head?) ["data-y"] cmds a.refY b.refY

/-- The settings for colours and sizes of data points. -/
structure ColorsMeans (cmds : List Expr) (a b : SeriesData) : Prop where
  colors : Acts [("colors", Texts P)] cmds a.colors b.colors
  colorMap : LastOf (fun args v => ∃ m, readColorMap E args = .ok m ∧ v = some m) ["color-map"] cmds a.colorMap b.colorMap

structure SizesMeans (cmds : List Expr) (a b : SeriesData) : Prop where
  sizes : Acts [("sizes", Texts P)] cmds a.sizes b.sizes
  sizeMap : LastOf (fun args v => ∃ m, readSizeMap E args = .ok m ∧ v = some m) ["size-map"] cmds a.sizeMap b.sizeMap

structure ScalesMeans (cmds : List Expr) (a b : Scales) : Prop where
  x : Acts (scaleX P E) cmds a.x b.x
  y : Acts (scaleY P E) cmds a.y b.y

/-! ## Elements -/

structure LinesMeans (cmds : List Expr) (a b : LinesConf φ) : Prop where
  known : Known (dataNames ++ scaleNames ++ ["color", "stroke-width", "stroke-style", "stroke-color", "marker-size",
    "marker-shape", "marker-color", "labels", "label-font-size", "label-color", "label-padding"]) cmds
  data : DataMeans cmds a.refs b.refs
  scales : ScalesMeans P E cmds a.scales b.scales
  stroke : Acts [("color", strokeColor E), ("stroke-color", strokeColor E), ("stroke-width", strokeWidth E),
    ("stroke-style", strokeStyle E)] cmds a.stroke b.stroke
  markerSize : LastOf (IsSize E) ["marker-size"] cmds a.markerSize b.markerSize
  markerShape : LastOf (fun args m => readMarker E args = .ok m) ["marker-shape"] cmds a.markerShape b.markerShape
  markerColor : LastOf (IsColor E) ["color", "marker-color"] cmds a.markerColor b.markerColor
  labels : Acts [("labels", Texts P)] cmds a.labels b.labels
  labelFonts : b.labelFonts = a.labelFonts
  labelFontSize : LastOf (IsSize E) ["label-font-size"] cmds a.labelFontSize b.labelFontSize
  labelColor : LastOf (IsColor E) ["label-color"] cmds a.labelColor b.labelColor
  labelPadding : LastOf (IsSize E) ["label-padding"] cmds a.labelPadding b.labelPadding
  loaded : b.x = a.x ∧ b.y = a.y ∧ b.groups = a.groups

structure PointsMeans (cmds : List Expr) (a b : PointsConf φ) : Prop where
  known : Known (dataNames ++ scaleNames ++ ["colors", "color-map", "sizes", "size-map", "shape", "shapes", "size", "color",
    "labels", "label-font", "label-font-size", "label-color", "label-padding", "font"]) cmds
  data : DataMeans cmds a.refs b.refs
  scales : ScalesMeans P E cmds a.scales b.scales
  colors : ColorsMeans P E cmds a.series b.series
  sizes : SizesMeans P E cmds a.series b.series
  shape : LastOf (fun args m => readMarker E args = .ok m) ["shape"] cmds a.shape b.shape
  shapes : LastOf (fun args m => readMarkers E args = .ok m) ["shapes"] cmds a.shapes b.shapes
  size : LastOf (IsSize E) ["size"] cmds a.size b.size
  color : LastOf (IsColor E) ["color"] cmds a.color b.color
  labels : Acts [("labels", Texts P)] cmds a.labels b.labels
  labelFonts : Acts [("label-font", AddFont P), ("font", AddFont P)] cmds a.labelFonts b.labelFonts
  labelFontSize : LastOf (IsSize E) ["label-font-size"] cmds a.labelFontSize b.labelFontSize
  labelColor : LastOf (IsColor E) ["label-color"] cmds a.labelColor b.labelColor
  labelPadding : LastOf (IsSize E) ["label-padding"] cmds a.labelPadding b.labelPadding
  loaded : b.x = a.x ∧ b.y = a.y ∧ b.colors = a.colors ∧ b.sizes = a.sizes

structure BarsMeans (cmds : List Expr) (a b : BarsConf φ) : Prop where
  known : Known (scaleNames ++ ["data-x", "data-y", "data-x-high", "data-y-high", "data-x-low", "data-y-low", "width",
    "widths", "offset", "offsets", "stroke-color", "stroke-width", "stroke-style", "fill", "color", "direction", "labels",
    "label-font-size", "label-color", "label-padding"]) cmds
  scales : ScalesMeans P E cmds a.scales b.scales
  x : Acts [("data-x", AddData P), ("data-x-high", AddData P)] cmds a.x b.x
  y : Acts [("data-y", AddData P), ("data-y-high", AddData P)] cmds a.y b.y
  xoffset : Acts [("data-x-low", AddData P)] cmds a.xoffset b.xoffset
  yoffset : Acts [("data-y-low", AddData P)] cmds a.yoffset b.yoffset
  size : LastOf (IsSize E) ["width"] cmds a.size b.size
  sizes : Acts [("widths", AddLengths P)] cmds a.sizes b.sizes
  offset : LastOf (IsSize E) ["offset"] cmds a.offset b.offset
  offsets : Acts [("offsets", AddLengths P)] cmds a.offsets b.offsets
  stroke : Acts [("color", strokeColor E), ("stroke-color", strokeColor E), ("stroke-width", strokeWidth E),
    ("stroke-style", strokeStyle E)] cmds a.stroke b.stroke
  fill : Acts [("fill", fillStyle E), ("color", fillColor E)] cmds a.fill b.fill
  direction : LastOf (IsOneOf [("horizontal", .horizontal), ("vertical", .vertical)]) ["direction"] cmds a.direction
    b.direction
  labels : Acts [("labels", Texts P)] cmds a.labels b.labels
  labelFonts : b.labelFonts = a.labelFonts
  labelFontSize : LastOf (IsSize E) ["label-font-size"] cmds a.labelFontSize b.labelFontSize
  labelColor : LastOf (IsColor E) ["label-color"] cmds a.labelColor b.labelColor
  labelPadding : LastOf (IsMeasure P) ["label-padding"] cmds a.labelPadding b.labelPadding

structure AreasMeans (cmds : List Expr) (a b : AreasConf) : Prop where
  known : Known (dataNames ++ scaleNames ++ ["data-x-high", "data-y-high", "data-x-low", "data-y-low", "stroke-color",
    "stroke-width", "stroke-style", "stroke-high-color", "stroke-high-width", "stroke-high-style", "stroke-low-color",
    "stroke-low-width", "stroke-low-style", "fill", "color", "direction"]) cmds
  data : DataMeans cmds a.refs b.refs
  scales : ScalesMeans P E cmds a.scales b.scales
  x : Acts [("data-x-high", AddData P)] cmds a.x b.x
  y : Acts [("data-y-high", AddData P)] cmds a.y b.y
  xoffset : Acts [("data-x-low", AddData P)] cmds a.xoffset b.xoffset
  yoffset : Acts [("data-y-low", AddData P)] cmds a.yoffset b.yoffset
  strokeHigh : Acts [("color", strokeColor E), ("stroke-color", strokeColor E), ("stroke-width", strokeWidth E),
    ("stroke-style", strokeStyle E), ("stroke-high-color", strokeColor E), ("stroke-high-width", strokeWidth E),
    ("stroke-high-style", strokeStyle E)] cmds a.strokeHigh b.strokeHigh
  strokeLow : Acts [("color", strokeColor E), ("stroke-color", strokeColor E), ("stroke-width", strokeWidth E),
    ("stroke-style", strokeStyle E), ("stroke-low-color", strokeColor E), ("stroke-low-width", strokeWidth E),
    ("stroke-low-style", strokeStyle E)] cmds a.strokeLow b.strokeLow
  fill : Acts [("fill", fillStyle E), ("color", fillColor E)] cmds a.fill b.fill
  direction : LastOf (IsOneOf [("horizontal", .horizontal), ("vertical", .vertical)]) ["direction"] cmds a.direction
    b.direction

structure ErrorbarsMeans (cmds : List Expr) (a b : ErrorbarsConf) : Prop where
  known : Known (scaleNames ++ ["colors", "color-map", "data-x", "data-y", "data-x-low", "data-x-high", "data-y-low",
    "data-y-high", "width", "color", "stroke-color", "stroke-width"]) cmds
  scales : ScalesMeans P E cmds a.scales b.scales
  colors : ColorsMeans P E cmds a.series b.series
  x : Acts [("data-x", AddData P)] cmds a.x b.x
  y : Acts [("data-y", AddData P)] cmds a.y b.y
  xLow : Acts [("data-x-low", AddData P)] cmds a.xLow b.xLow
  xHigh : Acts [("data-x-high", AddData P)] cmds a.xHigh b.xHigh
  yLow : Acts [("data-y-low", AddData P)] cmds a.yLow b.yLow
  yHigh : Acts [("data-y-high", AddData P)] cmds a.yHigh b.yHigh
  barWidth : LastOf (IsSize E) ["width"] cmds a.barWidth b.barWidth
  color : LastOf (IsColor E) ["color", "stroke-color"] cmds a.strokeColor b.strokeColor
  strokeWidth : LastOf (IsSize E) ["stroke-width"] cmds a.strokeWidth b.strokeWidth
  loaded : b.colors = a.colors

structure RectanglesMeans (cmds : List Expr) (a b : RectanglesConf) : Prop where
  known : Known (dataNames ++ scaleNames ++ ["colors", "color-map", "data-size-x", "data-size-y", "data-size", "size",
    "size-x", "size-y", "color"]) cmds
  data : DataMeans cmds a.refs b.refs
  scales : ScalesMeans P E cmds a.scales b.scales
  colors : ColorsMeans P E cmds a.series b.series
  sizeX : Acts [("data-size-x", AddData P), ("data-size", AddData P)] cmds a.sizeX b.sizeX
  sizeY : Acts [("data-size-y", AddData P), ("data-size", AddData P)] cmds a.sizeY b.sizeY
  sizeXDefault : LastOf (IsSize E) ["size", "size-x"] cmds a.sizeXDefault b.sizeXDefault
  sizeYDefault : LastOf (IsSize E) ["size", "size-y"] cmds a.sizeYDefault b.sizeYDefault
  color : LastOf (IsColor E) ["color"] cmds a.color b.color
  loaded : b.x = a.x ∧ b.y = a.y ∧ b.colors = a.colors

structure VectorsMeans (cmds : List Expr) (a b : VectorsConf) : Prop where
  known : Known (dataNames ++ scaleNames ++ ["colors", "color-map", "sizes", "size-map", "data-dx", "data-dy", "color",
    "size"]) cmds
  data : DataMeans cmds a.refs b.refs
  scales : ScalesMeans P E cmds a.scales b.scales
  colors : ColorsMeans P E cmds a.series b.series
  sizes : SizesMeans P E cmds a.series b.series
  dx : Acts [("data-dx", AddData P)] cmds a.dx b.dx
  dy : Acts [("data-dy", AddData P)] cmds a.dy b.dy
  color : LastOf (IsColor E) ["color"] cmds a.color b.color
  size : LastOf (IsSize E) ["size"] cmds a.size b.size
  loaded : b.x = a.x ∧ b.y = a.y ∧ b.colors = a.colors ∧ b.sizes = a.sizes

structure LabelsMeans (cmds : List Expr) (a b : LabelsConf φ) : Prop where
  known : Known (dataNames ++ scaleNames ++ ["labels", "label-font", "label-font-size", "label-color", "label-padding",
    "font"]) cmds
  data : DataMeans cmds a.refs b.refs
  scales : ScalesMeans P E cmds a.scales b.scales
  labels : Acts [("labels", Texts P)] cmds a.labels b.labels
  labelFonts : Acts [("label-font", AddFont P), ("font", AddFont P)] cmds a.labelFonts b.labelFonts
  labelFontSize : LastOf (IsSize E) ["label-font-size"] cmds a.labelFontSize b.labelFontSize
  labelColor : LastOf (IsColor E) ["label-color"] cmds a.labelColor b.labelColor
  labelPadding : LastOf (IsMeasure P) ["label-padding"] cmds a.labelPadding b.labelPadding
  loaded : b.x = a.x ∧ b.y = a.y

/-- Polygons are added to the ones before. -/
def AddPolys (args : List Expr) (a b : List Poly2) : Prop :=
  ∃ k f as rest ps, args = .list (.literal "geojson".toList :: k :: as) :: rest ∧ (k = .literal f ∨ k = .value f) ∧
    P.geoPolys f = (ps, .ok ()) ∧ b = a ++ ps

structure PolygonsMeans (cmds : List Expr) (a b : PolygonsConf) : Prop where
  known : Known ["limit-x", "limit-x-min", "limit-x-max", "limit-y", "limit-y-min", "limit-y-max", "scale-x", "scale-y",
    "data", "color", "fill", "stroke-color", "stroke-width", "stroke-style"] cmds
  x : Acts [("limit-x", scaleLimits E), ("limit-x-min", scaleMinimum E), ("limit-x-max", scaleMaximum E),
    ("scale-x", ScaleWords P)] cmds a.scales.x b.scales.x
  y : Acts [("limit-y", scaleLimits E), ("limit-y-min", scaleMinimum E), ("limit-y-max", scaleMaximum E),
    ("scale-y", ScaleWords P)] cmds a.scales.y b.scales.y
  polys : Acts [("data", AddPolys P)] cmds a.polys b.polys
  fill : Acts [("fill", fillStyle E), ("color", fillColor E)] cmds a.fill b.fill
  stroke : Acts [("color", strokeColor E), ("stroke-color", strokeColor E), ("stroke-width", strokeWidth E),
    ("stroke-style", strokeStyle E)] cmds a.stroke b.stroke

/-- A placement of ticks or labels. -/
def IsPlacement (args : List Expr) (v : Option TickSpec) : Prop :=
  ∃ t, Placement P.stod args t ∧ v = some t

structure GridMeans (cmds : List Expr) (a b : GridConf) : Prop where
  known : Known (scaleNames ++ ["tick-placement-x", "tick-placement-y", "color", "stroke-color", "stroke-width",
    "stroke-style"]) cmds
  scales : ScalesMeans P E cmds a.scales b.scales
  layoutX : LastOf (IsPlacement P) ["tick-placement-x"] cmds a.layoutX b.layoutX
  layoutY : LastOf (IsPlacement P) ["tick-placement-y"] cmds a.layoutY b.layoutY
  stroke : Acts [("color", strokeColor E), ("stroke-color", strokeColor E), ("stroke-width", strokeWidth E),
    ("stroke-style", strokeStyle E)] cmds a.stroke b.stroke

structure BackgroundMeans (cmds : List Expr) (a b : BackgroundConf) : Prop where
  known : Known ["color", "fill", "stroke-color", "stroke-width", "stroke-style"] cmds
  fill : Acts [("fill", fillStyle E), ("color", fillColor E)] cmds a.fill b.fill
  stroke : Acts [("color", strokeColor E), ("stroke-color", strokeColor E), ("stroke-width", strokeWidth E),
    ("stroke-style", strokeStyle E)] cmds a.stroke b.stroke

/-! ## Which options are accepted -/

/-- Every option has a name of the list, and arguments that the list allows for it. -/
def Acceptable (t : List (String × (List Expr → Prop))) (cmds : List Expr) : Prop :=
  ∀ c ∈ cmds, ∃ n A, (n, A) ∈ t ∧ nameOf c = some (String.toList n) ∧ A (argsOf c)

/-- The arguments say something. -/
def Has {α : Type} (R : List Expr → α → Prop) (args : List Expr) : Prop := ∃ v, R args v

/-- The arguments say what to do with the value, whatever it is. -/
def Does {α : Type} (f : Effect α) (args : List Expr) : Prop := ∀ a, ∃ b, f args a b

def anything (_ : List Expr) : Prop := True

abbrev Takes := List (String × (List Expr → Prop))

def takesData : Takes := [("data", Has IsText), ("data-format", Has IsText), ("data-x", anything), ("data-y", anything)]

def takesLimits : Takes := [("limit-x", Does (scaleLimits E)), ("limit-x-min", Has (IsNumber E)),
  ("limit-x-max", Has (IsNumber E)), ("limit-y", Does (scaleLimits E)), ("limit-y-min", Has (IsNumber E)),
  ("limit-y-max", Has (IsNumber E)), ("scale-x", Does (ScaleWords P)), ("scale-y", Does (ScaleWords P))]

def takesScales : Takes :=
  takesLimits P E ++ [("scale-x-padding", Has (IsNumber E)), ("scale-y-padding", Has (IsNumber E))]

def takesColors : Takes := [("colors", Does (Texts P)), ("color-map", Has fun args m => readColorMap E args = .ok m)]

def takesSizes : Takes := [("sizes", Does (Texts P)), ("size-map", Has fun args m => readSizeMap E args = .ok m)]

def linesTakes : Takes := takesData ++ takesScales P E ++ [
  ("color", Has (IsColor E)), ("stroke-width", Has (IsSize E)), ("stroke-style", Does (strokeStyle E)),
  ("stroke-color", Has (IsColor E)), ("marker-size", Has (IsSize E)),
  ("marker-shape", Has fun args m => readMarker E args = .ok m), ("marker-color", Has (IsColor E)),
  ("labels", Does (Texts P)), ("label-font-size", Has (IsSize E)), ("label-color", Has (IsColor E)),
  ("label-padding", Has (IsSize E))]

def pointsTakes : Takes := takesData ++ takesScales P E ++ (takesColors P E ++ takesSizes P E) ++ [
  ("shape", Has fun args m => readMarker E args = .ok m), ("shapes", Has fun args m => readMarkers E args = .ok m),
  ("size", Has (IsSize E)), ("color", Has (IsColor E)), ("labels", Does (Texts P)), ("label-font", Does (AddFont P)),
  ("label-font-size", Has (IsSize E)), ("label-color", Has (IsColor E)), ("label-padding", Has (IsSize E)),
  ("font", Does (AddFont P))]

def barsTakes : Takes := takesScales P E ++ [
  ("data-x", Does (AddData P)), ("data-y", Does (AddData P)), ("data-x-high", Does (AddData P)),
  ("data-y-high", Does (AddData P)), ("data-x-low", Does (AddData P)), ("data-y-low", Does (AddData P)),
  ("width", Has (IsSize E)), ("widths", Does (AddLengths P)), ("offset", Has (IsSize E)),
  ("offsets", Does (AddLengths P)), ("stroke-color", Has (IsColor E)), ("stroke-width", Has (IsSize E)),
  ("stroke-style", Does (strokeStyle E)), ("fill", Does (fillStyle E)), ("color", Has (IsColor E)),
  ("direction", Has (IsOneOf [("horizontal", Direction.horizontal), ("vertical", .vertical)])),
  ("labels", Does (Texts P)), ("label-font-size", Has (IsSize E)), ("label-color", Has (IsColor E)),
  ("label-padding", Has (IsMeasure P))]

def areasTakes : Takes := takesData ++ takesScales P E ++ [
  ("data-x-high", Does (AddData P)), ("data-y-high", Does (AddData P)), ("data-x-low", Does (AddData P)),
  ("data-y-low", Does (AddData P)), ("stroke-color", Has (IsColor E)), ("stroke-width", Has (IsSize E)),
  ("stroke-style", Does (strokeStyle E)), ("stroke-high-color", Has (IsColor E)),
  ("stroke-high-width", Has (IsSize E)), ("stroke-high-style", Does (strokeStyle E)),
  ("stroke-low-color", Has (IsColor E)), ("stroke-low-width", Has (IsSize E)),
  ("stroke-low-style", Does (strokeStyle E)), ("fill", Does (fillStyle E)), ("color", Has (IsColor E)),
  ("direction", Has (IsOneOf [("horizontal", Direction.horizontal), ("vertical", .vertical)]))]

def errorbarsTakes : Takes := takesScales P E ++ takesColors P E ++ [
  ("data-x", Does (AddData P)), ("data-y", Does (AddData P)), ("data-x-low", Does (AddData P)),
  ("data-x-high", Does (AddData P)), ("data-y-low", Does (AddData P)), ("data-y-high", Does (AddData P)),
  ("width", Has (IsSize E)), ("color", Has (IsColor E)), ("stroke-color", Has (IsColor E)),
  ("stroke-width", Has (IsSize E))]

def rectanglesTakes : Takes := takesData ++ takesScales P E ++ takesColors P E ++ [
  ("data-size-x", Does (AddData P)), ("data-size-y", Does (AddData P)), ("data-size", Does (AddData P)),
  ("size", Has (IsSize E)), ("size-x", Has (IsSize E)), ("size-y", Has (IsSize E)), ("color", Has (IsColor E))]

def vectorsTakes : Takes := takesData ++ takesScales P E ++ (takesColors P E ++ takesSizes P E) ++ [
  ("data-dx", Does (AddData P)), ("data-dy", Does (AddData P)), ("color", Has (IsColor E)), ("size", Has (IsSize E))]

def labelsTakes : Takes := takesData ++ takesScales P E ++ [
  ("labels", Does (Texts P)), ("label-font", Does (AddFont P)), ("label-font-size", Has (IsSize E)),
  ("label-color", Has (IsColor E)), ("label-padding", Has (IsMeasure P)), ("font", Does (AddFont P))]

def polygonsTakes : Takes := takesLimits P E ++ [
  ("data", Does (AddPolys P)), ("color", Has (IsColor E)), ("fill", Does (fillStyle E)),
  ("stroke-color", Has (IsColor E)), ("stroke-width", Has (IsSize E)), ("stroke-style", Does (strokeStyle E))]

def gridTakes : Takes := takesScales P E ++ [
  ("tick-placement-x", Has (IsPlacement P)), ("tick-placement-y", Has (IsPlacement P)), ("color", Has (IsColor E)),
  ("stroke-color", Has (IsColor E)), ("stroke-width", Has (IsSize E)), ("stroke-style", Does (strokeStyle E))]

def backgroundTakes : Takes := [
  ("color", Has (IsColor E)), ("fill", Does (fillStyle E)), ("stroke-color", Has (IsColor E)),
  ("stroke-width", Has (IsSize E)), ("stroke-style", Does (strokeStyle E))]

/-! ## The data an element has after its options -/

/-- Points read from a file or from columns, as many x as y values. -/
def LoadsPoints (o : DataRefs) (x₀ y₀ x y : DataBuffer (Option ℝ)) : Prop :=
  ∃ u, dataLoadPoints2 P.readFile P.geoPoints o.path o.format o.refX o.refY x₀ y₀ = ((x, y), .ok u) ∧
    x.index.length = y.index.length

/-- A colour for every text, by the colour map if there is one. -/
def ColorsOf (o : SeriesData) (colors : List Color) : Prop :=
  List.Forall₂ (fun v k => convertColor P o.colorMap v = .ok k) o.colors colors

/-- A size for every text, by the size map if there is one. -/
def SizesOf (o : SeriesData) (sizes : List ℝ) : Prop :=
  List.Forall₂ (fun v k => convertSize P o.sizeMap v = .ok k) o.sizes sizes

/-- As many x as y values, and offsets for all or none of them. -/
def RangesFit (x xoffset y yoffset : DataBuffer (Option ℝ)) : Prop :=
  x.index.length = y.index.length ∧ (xoffset.index.length = 0 ∨ xoffset.index.length = x.index.length) ∧
    (yoffset.index.length = 0 ∨ yoffset.index.length = y.index.length)

def linesLoads (o c : LinesConf φ) : Prop :=
  ∃ x y g u, dataLoadPolylines2 P.readFile P.geoLines o.refs.path o.refs.format o.refs.refX o.refs.refY o.x o.y o.groups =
      ((x, y, g), .ok u) ∧ x.index.length = y.index.length ∧ x.index ≠ [] ∧ c = { o with x := x, y := y, groups := g }

def pointsLoads (o c : PointsConf φ) : Prop := ∃ x y colors sizes, LoadsPoints P o.refs o.x o.y x y ∧
  ColorsOf P o.series colors ∧ SizesOf P o.series sizes ∧ c = { o with x := x, y := y, colors := colors, sizes := sizes }

def barsLoads (o c : BarsConf φ) : Prop := RangesFit o.x o.xoffset o.y o.yoffset ∧ c = o

def areasLoads (o c : AreasConf) : Prop :=
  ∃ x y u, dataLoadPoints2 P.readFile P.geoPoints o.refs.path o.refs.format o.refs.refX o.refs.refY o.x o.y =
    ((x, y), .ok u) ∧ RangesFit x o.xoffset y o.yoffset ∧ c = { o with x := x, y := y }

/-- Error bars are vertical (x, y-low and y-high given) or horizontal (y, x-low and x-high given). -/
def errorbarsLoads (o c : ErrorbarsConf) : Prop := ∃ colors, ColorsOf P o.series colors ∧ c = { o with colors := colors } ∧
  ((o.x.index ≠ [] ∧ o.y.index = [] ∧ o.yLow.index.length = o.x.index.length ∧ o.yHigh.index.length = o.x.index.length) ∨
   (o.y.index ≠ [] ∧ o.x.index = [] ∧ o.xLow.index.length = o.y.index.length ∧ o.xHigh.index.length = o.y.index.length))

def rectanglesLoads (o c : RectanglesConf) : Prop := ∃ x y colors, LoadsPoints P o.refs o.x o.y x y ∧
  ColorsOf P o.series colors ∧ c = { o with x := x, y := y, colors := colors }

def vectorsLoads (o c : VectorsConf) : Prop := ∃ x y colors sizes, LoadsPoints P o.refs o.x o.y x y ∧
  ColorsOf P o.series colors ∧ SizesOf P o.series sizes ∧ c = { o with x := x, y := y, colors := colors, sizes := sizes }

def labelsLoads (o c : LabelsConf φ) : Prop := ∃ x y, LoadsPoints P o.refs o.x o.y x y ∧ c = { o with x := x, y := y }

/-- What an element makes of its options: refused if one of them is unknown or its arguments are wrong; otherwise every
setting has the value given by the options, starting from `start`, and the rest depends on the data. -/
def Configured {α : Type} (run : Except Fail α) (ok : Prop) (means : α → Prop) (loads : α → α → Prop) : Prop :=
  (¬ ok → ∀ c, run ≠ .ok c) ∧ (ok → ∃ o, means o ∧ ∀ c, run = .ok c ↔ loads o c)

/-- The elements of a plot that show data, with the options they take. -/
def dataElements : List (String × Takes) := [("areas", areasTakes P E), ("bars", barsTakes P E),
  ("errorbars", errorbarsTakes P E), ("labels", labelsTakes P E), ("lines", linesTakes P E), ("points", pointsTakes P E),
  ("polygons", polygonsTakes P E), ("rectangles", rectanglesTakes P E), ("vectors", vectorsTakes P E)]

end
end Clip.Options
