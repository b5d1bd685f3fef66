import Verif.Model.ScaleConf
import Verif.Model.Draw
import Verif.Model.Marker
import Verif.Model.GeoData
/-!
# Model of the plot elements in `src/plot`: configuration, automatic limits, drawing on the layer

Exact arithmetic.  A coordinate that is NaN (a value a scale cannot translate) makes the model stop with `undefined`:
the code draws shapes with such coordinates, the model has none.
-/
namespace Clip
noncomputable section

/-- What the plot module takes from outside. -/
structure PlotEnv (φ : Type) where
  stod : Str → Option (ℝ × Nat)
  /-- `std::to_string` on numbers; `none` is NaN -/
  toS : Option ℝ → Str
  /-- `parse_f64` -/
  parse : Str → Option ℝ
  readFile : Str → Option Str
  geoLines : LineReader (Option ℝ)
  geoPoints : Str → List (Option ℝ × Option ℝ) × Outcome DataErr Unit
  geoPolys : Str → List Poly2 × Outcome DataErr Unit
  /-- `std::sort` on the stops of a colour map -/
  sortStops : List (ℝ × Color) → List (ℝ × Color)
  strftime : Str → ℤ → Str
  text : TextEnv φ

/-- plotgen.h:22-28 `struct PlotConfig` (the scales; the rest in `PlotState`). -/
structure Scales where
  x : Scale := {}
  y : Scale := {}

/-! ## Option tables -/

/-- An `unordered_map` built from an initialiser list: of two entries with the same key the first is kept. -/
def optTable {σ : Type} (l : List (String × Handler σ Fail)) : HandlerMap σ Fail := fun n =>
  (l.find? fun p => decide (p.1.toList = n)).map (·.2)

/-- The same options for a part of the state. -/
def liftOpts {σ α : Type} (get : σ → α) (put : σ → α → σ) (l : List (String × Handler α Fail)) :
    List (String × Handler σ Fail) := l.map fun p => (p.1, onPart get put p.2)

/-- sexpr_util.cc:129-139 `expr_calln` (bound by `expr_calln_fn`): every function gets the whole argument chain. -/
def callAll {σ : Type} (hs : List (Handler σ Fail)) : Handler σ Fail := fun args => tryChain (hs.map fun h => h args)

def failOf {ε α : Type} (e : ReadErr) : Outcome ε α → Option Fail
  | .ok _ => none
  | .error _ => some (.error e)
  | .thrown => some .thrown
  | .undefined => some .undefined

/-- sexpr_conv.cc:25-34 `expr_to_string`. -/
def readString (args : List Expr) : Except Fail Str :=
  match exprToString args with
  | some t => .ok t
  | none => .error (.error .expectedValue)

/-- sexpr_util.cc:155-173 `expr_call_string_fn` on `font_load_best`, which puts the font before the others. -/
def readFont {φ : Type} (T : TextEnv φ) (args : List Expr) : Except Fail φ :=
  match exprToString args with
  | some t => match T.loadFont t with
    | some f => .ok f
    | none => .error (.error .font)
  | none => .error (.error .expectedValue)

/-- typographic_reader.cc:24-35 `measure_read`: the unit is kept. -/
def readMeasure (stod : Str → Option (ℝ × Nat)) : List Expr → Except Fail Measure
  | [] => .error (.error .expectedValue)
  | e :: _ =>
    if e.isValue then
      match parseMeasure stod e.getValue with
      | .error x => .error (.error (.measure x))
      | .ok m => .ok m
    else .error (.error .expectedValue)

/-- marker.cc:126-203 `marker_configure`, `marker_configure_list`. -/
def readMarker (E : ReadEnv) (args : List Expr) : Except Fail Marker :=
  match markerConfigure (fun e => (exprToFloat E.stod e).toOption) args with
  | some m => .ok m
  | none => .error (.error .invalidValue)

def readMarkers (E : ReadEnv) (args : List Expr) : Except Fail (List Marker) :=
  match markerConfigureList (fun e => (exprToFloat E.stod e).toOption) args with
  | some m => .ok m
  | none => .error (.error .invalidValue)

/-- color_reader.cc:202-220 `color_map_read`: what the map was built from. -/
def readColorMap (E : ReadEnv) (args : List Expr) : Except Fail (MapKind × List (ℝ × Color)) :=
  liftOutcome (colorMapRead E.stod E.palette args)

/-- color_map.cc:26-117: the map applied to a value. -/
def colorMapApply (stod : Str → Option (ℝ × Nat)) (sort : List (ℝ × Color) → List (ℝ × Color))
    (m : MapKind × List (ℝ × Color)) (value : Str) : Outcome ColorErr Color :=
  match m.1 with
  | .gradient => gradientMap stod (sort m.2) value
  | .steps => stepsMap stod (sort m.2) value

/-- typographic_reader.cc:79-127 `measure_map_read`: the two ends of the linear map. -/
def readSizeMap (E : ReadEnv) (args : List Expr) : Except Fail (Measure × Measure) :=
  match isCall args "linear".toList with
  | some [a, b] => match readMeasureN E [a] with
    | .error f => .error f
    | .ok m => match readMeasureN E [b] with
      | .error f => .error f
      | .ok n => .ok (m, n)
  | some _ => .error (.error .nargs)
  | none => .error (.error .invalidValue)

/-- data.cc:288-300 `data_load_simple`: the values are added to the buffer. -/
def loadSimple (readFile : Str → Option Str) : Handler (DataBuffer (Option ℝ)) Fail := fun args b =>
  let r := dataLoadSimple readFile args
  (databufAddTexts b r.1, failOf .data r.2)

/-- data.cc:191-212 `data_load_csv`: numbers become measures in user units. -/
def userMeasures (stod : Str → Option (ℝ × Nat)) : List Str → Option (List Measure)
  | [] => some []
  | v :: vs => match stod v with
    | none => none
    | some (x, _) => (userMeasures stod vs).map (⟨.user, x⟩ :: ·)

/-- data.cc:534-551 `data_load`: a CSV column is added; any other list is handed to `measure_read_list` as a whole. -/
def loadMeasures (P : Str → Option (ℝ × Nat)) (readFile : Str → Option Str) :
    Handler (List Measure) Fail := fun args old =>
  match args with
  | .list (.literal h :: es) :: _ =>
    if h = "csv".toList then
      match dataLoadCsvColumn readFile es with
      | (vs, .ok _) => match userMeasures P vs with
        | some ms => (old ++ ms, none)
        | none => (old, some (.error .data))
      | (_, o) => (old, failOf .data o)
    else match readEach (readMeasure P) args with
      | .ok ms => (ms, none)
      | .error f => (old, some f)
  | .list _ :: _ => match readEach (readMeasure P) args with
    | .ok ms => (ms, none)
    | .error f => (old, some f)
  | _ => (old, some (.error .notList))

/-- `expr_to_float64_opt_pair`, `expr_to_float64_opt`, `expr_to_float64` on the fields of a scale. -/
def limitPair (E : ReadEnv) : Handler Scale Fail := fun args s =>
  let r := readFloatPair E args (s.min, s.max)
  ({ s with min := r.1.1, max := r.1.2 }, r.2)

def limitMin (E : ReadEnv) : Handler Scale Fail := field (fun args _ => readFloat E args) fun s v => { s with min := some v }

def limitMax (E : ReadEnv) : Handler Scale Fail := field (fun args _ => readFloat E args) fun s v => { s with max := some v }

def scalePadding (E : ReadEnv) : Handler Scale Fail :=
  field (fun args _ => readFloat E args) fun s v => { s with padding := v }

def onX (h : Handler Scale Fail) : Handler Scales Fail := onPart (·.x) (fun s v => { s with x := v }) h

def onY (h : Handler Scale Fail) : Handler Scales Fail := onPart (·.y) (fun s v => { s with y := v }) h

variable {φ : Type}

/-- The eight scale options all elements have, e.g. polygons.cc:61-68. -/
def limitOpts (P : PlotEnv φ) (E : ReadEnv) : List (String × Handler Scales Fail) := [
  ("limit-x", onX (limitPair E)),
  ("limit-x-min", onX (limitMin E)),
  ("limit-x-max", onX (limitMax E)),
  ("limit-y", onY (limitPair E)),
  ("limit-y-min", onY (limitMin E)),
  ("limit-y-max", onY (limitMax E)),
  ("scale-x", onX fun args s => scaleConfigureKind P.stod P.readFile args s),
  ("scale-y", onY fun args s => scaleConfigureKind P.stod P.readFile args s)]

/-- The ten scale options of the plot and of most elements, e.g. plotgen.cc:51-60, lines.cc:84-93. -/
def scaleOpts (P : PlotEnv φ) (E : ReadEnv) : List (String × Handler Scales Fail) := limitOpts P E ++ [
  ("scale-x-padding", onX (scalePadding E)),
  ("scale-y-padding", onY (scalePadding E))]

/-- The local variables for the data of an element, e.g. lines.cc:74-77. -/
structure DataRefs where
  path : Str := []
  format : Str := []
  refX : Option Expr := none
  refY : Option Expr := none

/-- lines.cc:80-83 (and the other elements): the data options; `expr_to_copy` keeps the first argument
(sexpr_conv.cc:216-219). -/
def dataOpts : List (String × Handler DataRefs Fail) := [
  ("data", field (fun args _ => readString args) fun d v => { d with path := v }),
  ("data-format", field (fun args _ => readString args) fun d v => { d with format := v }),
  ("data-x", fun args d => ({ d with refX := args.head? }, none)),
  ("data-y", fun args d => ({ d with refY := args.head? }, none))]

/-- style.h: a stroke style with nothing set. -/
def StrokeState.default : StrokeState := ⟨0, .black, false, ⟨.unit, 0⟩, []⟩

def FillStyle.default : FillStyle := ⟨none, none⟩

/-- `color_read` into the colour of a stroke style. -/
def strokeColor (E : ReadEnv) : Handler StrokeState Fail :=
  field (fun args k => readColor E k.color args) fun k c => { k with color := c }

/-- `expr_to_size` into the width of a stroke style. -/
def strokeWidth (E : ReadEnv) : Handler StrokeState Fail :=
  field (fun args _ => readSize E args) fun k v => { k with width := v }

/-- `color_read` into a variable. -/
def colorVar (E : ReadEnv) : Handler Color Fail := field (fun args c => readColor E c args) fun _ c => c

/-- `expr_to_size`, `expr_to_font_size` into a variable (the two conversion tables are the same, layer.cc:222-255). -/
def sizeVar (E : ReadEnv) : Handler ℝ Fail := field (fun args _ => readSize E args) fun _ v => v

/-- `data_load_strings` into a variable. -/
def stringsVar (P : PlotEnv φ) : Handler (List Str) Fail := fun args old =>
  match loadStrings P.readFile args old with
  | .ok vs => (vs, none)
  | .error f => (old, some f)

/-- `measure_read` into a variable. -/
def measureVar (P : PlotEnv φ) : Handler Measure Fail := field (fun args _ => readMeasure P.stod args) fun _ v => v

inductive Direction where | horizontal | vertical
  deriving DecidableEq

/-- bars.cc:291-297, areas.cc:305-311: the `direction` option. -/
def readDirection (args : List Expr) : Except Fail Direction :=
  readEnum (fun w => if w = "horizontal".toList then some .horizontal
    else if w = "vertical".toList then some .vertical else none) args

/-! ## Rendering -/

/-- A shape with the styles of a plot element. -/
def renderPath (stroke : StrokeState) (fill : FillStyle) (crisp : Bool) (p : Path) (L : Layer φ) : Layer φ :=
  { L with drawlist := drawShape L.drawlist p Compound.none stroke.style fill crisp }

/-- marker.cc:74-124: drawing a marker. -/
def renderMarker (P : PlotEnv φ) (m : Marker) (pos : Vec2) (size : ℝ) (color : Color) (L : Layer φ) :
    Layer φ × Option Fail :=
  match markerDraw m pos size with
  | .filled p => (renderPath .default ⟨some color, none⟩ false p L, none)
  | .stroked p w => (renderPath { StrokeState.default with width := w, color := color } .default false p L, none)
  | .text t pos ax ay fs => drawTextRotated P.text L t pos ax ay 0 L.fonts fs color

/-- arrows.cc:23-51: drawing an arrow; equal ends have no direction (NaN). -/
def renderArrow (a b : Vec2) (size : ℝ) (color : Color) (L : Layer φ) : Layer φ × Option Fail :=
  match arrowDefault a b size with
  | some [shaft, head] =>
    (renderPath .default ⟨some color, none⟩ false head
      (renderPath { StrokeState.default with width := size, color := color } .default false shaft L), none)
  | _ => (L, some .undefined)

/-- How the parts of an element are drawn. -/
structure OpStyle (φ : Type) where
  stroke : StrokeState := .default
  fill : FillStyle := .default
  fonts : List φ := []
  fontSize : ℝ := 0
  textColor : Color := .black

def renderOp (P : PlotEnv φ) (st : OpStyle φ) (op : PlotOp Marker Color) (L : Layer φ) : Layer φ × Option Fail :=
  match op with
  | .path p => (renderPath st.stroke st.fill false p L, none)
  | .marker m pos size color => renderMarker P m pos size color L
  | .arrow _ a b size color => renderArrow a b size color L
  | .text t pos ax ay => drawTextRotated P.text L t pos ax ay 0 st.fonts st.fontSize st.textColor

def renderOps (P : PlotEnv φ) (st : OpStyle φ) (ops : List (PlotOp Marker Color)) (L : Layer φ) :
    Layer φ × Option Fail := tryChain (ops.map (renderOp P st)) L

def renderOps? (P : PlotEnv φ) (st : OpStyle φ) (ops : Option (List (PlotOp Marker Color))) (L : Layer φ) :
    Layer φ × Option Fail :=
  match ops with
  | none => (L, some .undefined)
  | some ops => renderOps P st ops L

/-- scale.cc:225-235 `scale_translatev`, NaN excluded. -/
def translateBuf (P : PlotEnv φ) (s : Scale) (b : DataBuffer (Option ℝ)) : Except Fail (List ℝ) :=
  match translatevBuf .exact P.toS P.parse s b with
  | .ok vs => match vs.mapM id with
    | some ns => .ok ns
    | none => .error .undefined
  | .error _ => .error (.error .plot)
  | .thrown => .error .thrown
  | .undefined => .error .undefined

/-- scale.cc:280-296 `scale_translate_magnitudev`, NaN excluded. -/
def translateMagnitudeBuf (P : PlotEnv φ) (s : Scale) (b : DataBuffer (Option ℝ)) : Except Fail (List ℝ) :=
  match databufToNumbers P.parse b with
  | none => .error .undefined
  | some vs => match vs.mapM fun v => v.bind (translateMagnitude .exact s) with
    | some ns => .ok ns
    | none => .error .undefined

/-- `scale_translate(scale, 0)`, NaN excluded. -/
def translateZero (s : Scale) : Except Fail ℝ :=
  match scaleTranslate .exact s 0 with
  | some v => .ok v
  | none => .error .undefined

/-! ## The state of a plot -/

/-- plotgen.h:22-28 `struct PlotConfig`, together with the layer. -/
structure PlotState (φ : Type) where
  layer : Layer φ
  scales : Scales := {}
  /-- top, right, bottom, left -/
  margins : ℝ × ℝ × ℝ × ℝ := (0, 0, 0, 0)
  layout : List Rect := []

/-- plotgen.cc:137-152 `plot_get_clip`. -/
def PlotState.clip (s : PlotState φ) : Rect :=
  plotGetClip s.layout (layerSize s.layer.size.width s.layer.size.dpi) (layerSize s.layer.size.height s.layer.size.dpi)
    s.margins

def PlotState.env (s : PlotState φ) (P : PlotEnv φ) : ReadEnv := s.layer.env P.stod

/-- layer.cc: font size and dots per inch of the layer. -/
def PlotState.fontSize (s : PlotState φ) : ℝ := layerSize s.layer.size.fontSize s.layer.size.dpi

def PlotState.pt (s : PlotState φ) (v : ℝ) : ℝ := unitFromPt v s.layer.size.dpi

/-- Fit buffers into the scales of the plot, in order (the `…_autorange` functions). -/
def fitAll (P : PlotEnv φ) (xs ys : List (DataBuffer (Option ℝ))) (s : Scales) : Scales × Option Fail :=
  tryChain ((xs.map fun b => onX (fun _ => scaleFitBuf P.toS P.parse b) []) ++
    (ys.map fun b => onY (fun _ => scaleFitBuf P.toS P.parse b) [])) s

/-- Draw on the layer of the plot. -/
def drawOn (s : PlotState φ) (r : Layer φ × Option Fail) : PlotState φ × Option Fail := ({ s with layer := r.1 }, r.2)

/-- An element: configure, then do something with the configuration. -/
def withConfig {κ : Type} (configure : PlotState φ → List Expr → Except Fail κ)
    (k : κ → PlotState φ → PlotState φ × Option Fail) : Handler (PlotState φ) Fail := fun args s =>
  match configure s args with
  | .error f => (s, some f)
  | .ok c => k c s

/-! ## lines -/

/-- lines.cc:40-55 `struct PlotLinesConfig`, with the local variables of `lines_configure`. -/
structure LinesConf (φ : Type) where
  refs : DataRefs := {}
  x : DataBuffer (Option ℝ) := {}
  y : DataBuffer (Option ℝ) := {}
  scales : Scales
  groups : List Nat := []
  stroke : StrokeState
  markerSize : ℝ := 0
  markerShape : Marker := .disk
  markerColor : Color := .black
  labels : List Str := []
  labelFonts : List φ
  labelColor : Color := .black
  labelPadding : ℝ := 0
  labelFontSize : ℝ

/-- lines.cc:79-110, the options. -/
def linesOpts (P : PlotEnv φ) (E : ReadEnv) : List (String × Handler (LinesConf φ) Fail) :=
  liftOpts (·.refs) (fun c v => { c with refs := v }) dataOpts ++
  liftOpts (·.scales) (fun c v => { c with scales := v }) (scaleOpts P E) ++ [
  ("color", callAll [
    onPart (·.stroke) (fun c v => { c with stroke := v }) (strokeColor E),
    onPart (·.markerColor) (fun c v => { c with markerColor := v }) (colorVar E)]),
  ("stroke-width", onPart (·.stroke) (fun c v => { c with stroke := v }) (strokeWidth E)),
  ("stroke-style", onPart (·.stroke) (fun c v => { c with stroke := v }) (readStrokeStyle E)),
  ("stroke-color", onPart (·.stroke) (fun c v => { c with stroke := v }) (strokeColor E)),
  ("marker-size", onPart (·.markerSize) (fun c v => { c with markerSize := v }) (sizeVar E)),
  ("marker-shape", field (fun args _ => readMarker E args) fun c v => { c with markerShape := v }),
  ("marker-color", onPart (·.markerColor) (fun c v => { c with markerColor := v }) (colorVar E)),
  ("labels", onPart (·.labels) (fun c v => { c with labels := v }) (stringsVar P)),
  ("label-font-size", onPart (·.labelFontSize) (fun c v => { c with labelFontSize := v }) (sizeVar E)),
  ("label-color", onPart (·.labelColor) (fun c v => { c with labelColor := v }) (colorVar E)),
  ("label-padding", onPart (·.labelPadding) (fun c v => { c with labelPadding := v }) (sizeVar E))]

/-- lines.cc:64-72: the defaults. -/
def linesDefault (s : PlotState φ) : LinesConf φ where
  scales := s.scales
  stroke := { StrokeState.default with width := s.pt 1.5 }
  labelFonts := s.layer.fonts
  labelFontSize := s.fontSize

/-- lines.cc:57-142 `lines_configure`. -/
def linesConfigure (P : PlotEnv φ) (s : PlotState φ) (args : List Expr) : Except Fail (LinesConf φ) :=
  match walkRead (optTable (linesOpts P (s.env P))) args (linesDefault s) with
  | (_, some f) => .error f
  | (c, none) =>
    match dataLoadPolylines2 P.readFile P.geoLines c.refs.path c.refs.format c.refs.refX c.refs.refY c.x c.y c.groups with
    | ((x, y, groups), .ok _) => match linesCheck x y with
      | .ok _ => .ok { c with x := x, y := y, groups := groups }
      | _ => .error (.error .plot)
    | (_, .error _) => .error (.error .data)
    | (_, .thrown) => .error .thrown
    | (_, .undefined) => .error .undefined

/-- lines.cc:144-227 `lines_draw`. -/
def linesRender (P : PlotEnv φ) (c : LinesConf φ) (s : PlotState φ) : PlotState φ × Option Fail :=
  match translateBuf P c.scales.x c.x with
  | .error f => (s, some f)
  | .ok xs => match translateBuf P c.scales.y c.y with
    | .error f => (s, some f)
    | .ok ys =>
      drawOn s (renderOps? P ⟨c.stroke, .default, c.labelFonts, c.labelFontSize, c.labelColor⟩
        (linesDraw s.clip ⟨c.groups, c.markerSize, c.markerShape, c.markerColor, c.labels, c.labelPadding,
          c.labelFontSize⟩ xs ys) s.layer)

/-- lines.cc:229-240. -/
def linesCmd (P : PlotEnv φ) : Handler (PlotState φ) Fail := withConfig (linesConfigure P) (linesRender P)

/-- lines.cc:242-261 `lines_autorange`. -/
def linesAutorange (P : PlotEnv φ) : Handler (PlotState φ) Fail := withConfig (linesConfigure P) fun c =>
  onPart (·.scales) (fun s v => { s with scales := v }) (fun _ => fitAll P [c.x] [c.y]) []

/-! ## points -/

/-- The `colors` and `sizes` of points, vectors, errorbars, rectangles, before the conversion. -/
structure SeriesData where
  colors : List Str := []
  colorMap : Option (MapKind × List (ℝ × Color)) := none
  sizes : List Str := []
  sizeMap : Option (Measure × Measure) := none

/-- points.cc:174-177 (and the other elements). -/
def colorOpts (P : PlotEnv φ) (E : ReadEnv) : List (String × Handler SeriesData Fail) := [
  ("colors", onPart (·.colors) (fun c v => { c with colors := v }) (stringsVar P)),
  ("color-map", field (fun args _ => readColorMap E args) fun c v => { c with colorMap := some v })]

def sizeOpts (P : PlotEnv φ) (E : ReadEnv) : List (String × Handler SeriesData Fail) := [
  ("sizes", onPart (·.sizes) (fun c v => { c with sizes := v }) (stringsVar P)),
  ("size-map", field (fun args _ => readSizeMap E args) fun c v => { c with sizeMap := some v })]

/-- points.cc:207-225 (and the other elements): the colour of one value. -/
def convertColor (P : PlotEnv φ) (m : Option (MapKind × List (ℝ × Color))) (v : Str) : Except Fail Color :=
  match m with
  | some m => liftOutcome (colorMapApply P.stod P.sortStops m v)
  | none => match colorParse v with
    | .ok (some c) => .ok c
    | .ok none => .error (.error .data)
    | .error _ => .error (.error .data)
    | .thrown => .error .thrown
    | .undefined => .error .undefined

/-- points.cc:227-241, vectors.cc:207-221: the size of one value; the unit is dropped when it is used (points.cc:89). -/
def convertSize (P : PlotEnv φ) (m : Option (Measure × Measure)) (v : Str) : Except Fail ℝ :=
  match m with
  | some m => (liftMeasure (measureMapLinear P.stod m.1 m.2 v)).map (·.value)
  | none => (liftMeasure (parseMeasure P.stod v)).map (·.value)

def convertAllWith {α : Type} (f : Str → Except Fail α) : List Str → Except Fail (List α)
  | [] => .ok []
  | v :: vs => match f v with
    | .error e => .error e
    | .ok a => match convertAllWith f vs with
      | .error e => .error e
      | .ok as => .ok (a :: as)

/-- points.cc:41-57 `struct PlotPointsConfig`, with the local variables of `points_configure`. -/
structure PointsConf (φ : Type) where
  refs : DataRefs := {}
  x : DataBuffer (Option ℝ) := {}
  y : DataBuffer (Option ℝ) := {}
  scales : Scales
  color : Color := .black
  series : SeriesData := {}
  colors : List Color := []
  size : ℝ
  sizes : List ℝ := []
  shape : Marker := .disk
  shapes : List Marker := []
  labels : List Str := []
  labelFonts : List φ
  labelPadding : ℝ := 0
  labelFontSize : ℝ
  labelColor : Color := .black

/-- points.cc:154-183, the options. -/
def pointsOpts (P : PlotEnv φ) (E : ReadEnv) : List (String × Handler (PointsConf φ) Fail) :=
  liftOpts (·.refs) (fun c v => { c with refs := v }) dataOpts ++
  liftOpts (·.scales) (fun c v => { c with scales := v }) (scaleOpts P E) ++
  liftOpts (·.series) (fun c v => { c with series := v }) (colorOpts P E ++ sizeOpts P E) ++ [
  ("shape", field (fun args _ => readMarker E args) fun c v => { c with shape := v }),
  ("shapes", field (fun args _ => readMarkers E args) fun c v => { c with shapes := v }),
  ("size", onPart (·.size) (fun c v => { c with size := v }) (sizeVar E)),
  ("color", onPart (·.color) (fun c v => { c with color := v }) (colorVar E)),
  ("labels", onPart (·.labels) (fun c v => { c with labels := v }) (stringsVar P)),
  ("label-font", field (fun args _ => readFont P.text args) fun c f => { c with labelFonts := f :: c.labelFonts }),
  ("label-font-size", onPart (·.labelFontSize) (fun c v => { c with labelFontSize := v }) (sizeVar E)),
  ("label-color", onPart (·.labelColor) (fun c v => { c with labelColor := v }) (colorVar E)),
  ("label-padding", onPart (·.labelPadding) (fun c v => { c with labelPadding := v }) (sizeVar E)),
  ("font", field (fun args _ => readFont P.text args) fun c f => { c with labelFonts := f :: c.labelFonts })]

/-- points.cc:137-144: the defaults. -/
def pointsDefault (s : PlotState φ) : PointsConf φ where
  scales := s.scales
  size := s.pt 4
  labelFonts := s.layer.fonts
  labelFontSize := s.fontSize

/-- data.cc:478-533 `data_load_points2` followed by the check of the lengths (points.cc:189-205). -/
def loadPoints (P : PlotEnv φ) (refs : DataRefs) (x y : DataBuffer (Option ℝ)) :
    Except Fail (DataBuffer (Option ℝ) × DataBuffer (Option ℝ)) :=
  match dataLoadPoints2 P.readFile P.geoPoints refs.path refs.format refs.refX refs.refY x y with
  | ((x, y), .ok _) => if databufLen x ≠ databufLen y then .error (.error .plot) else .ok (x, y)
  | (_, .error _) => .error (.error .data)
  | (_, .thrown) => .error .thrown
  | (_, .undefined) => .error .undefined

/-- points.cc:130-244 `points_configure`. -/
def pointsConfigure (P : PlotEnv φ) (s : PlotState φ) (args : List Expr) : Except Fail (PointsConf φ) :=
  match walkRead (optTable (pointsOpts P (s.env P))) args (pointsDefault s) with
  | (_, some f) => .error f
  | (c, none) => do
    let (x, y) ← loadPoints P c.refs c.x c.y
    let colors ← convertAllWith (convertColor P c.series.colorMap) c.series.colors
    let sizes ← convertAllWith (convertSize P c.series.sizeMap) c.series.sizes
    return { c with x := x, y := y, colors := colors, sizes := sizes }

/-- points.cc:59-128 `points_draw`. -/
def pointsRender (P : PlotEnv φ) (c : PointsConf φ) (s : PlotState φ) : PlotState φ × Option Fail :=
  match translateBuf P c.scales.x c.x with
  | .error f => (s, some f)
  | .ok xs => match translateBuf P c.scales.y c.y with
    | .error f => (s, some f)
    | .ok ys =>
      drawOn s (renderOps? P ⟨.default, .default, c.labelFonts, c.labelFontSize, c.labelColor⟩
        (pointsDraw s.clip ⟨c.color, c.colors, c.size, c.sizes, c.shape, c.shapes, c.labels, c.labelPadding,
          c.labelFontSize⟩ xs ys) s.layer)

/-- points.cc:246-257. -/
def pointsCmd (P : PlotEnv φ) : Handler (PlotState φ) Fail := withConfig (pointsConfigure P) (pointsRender P)

/-- points.cc:259-278 `points_autorange`. -/
def pointsAutorange (P : PlotEnv φ) : Handler (PlotState φ) Fail := withConfig (pointsConfigure P) fun c =>
  onPart (·.scales) (fun s v => { s with scales := v }) (fun _ => fitAll P [c.x] [c.y]) []

/-! ## bars -/

/-- bars.cc:41-61 `struct PlotBarsConfig`. -/
structure BarsConf (φ : Type) where
  direction : Direction := .vertical
  x : DataBuffer (Option ℝ) := {}
  xoffset : DataBuffer (Option ℝ) := {}
  y : DataBuffer (Option ℝ) := {}
  yoffset : DataBuffer (Option ℝ) := {}
  scales : Scales
  stroke : StrokeState := .default
  fill : FillStyle := ⟨some .black, none⟩
  size : ℝ := 0
  sizes : List Measure := []
  offset : ℝ := 0
  offsets : List Measure := []
  labels : List Str := []
  labelFonts : List φ
  labelPadding : Measure := ⟨.unit, 0⟩
  labelFontSize : ℝ
  labelColor : Color := .black

/-- bars.cc:257-302, the options. -/
def barsOpts (P : PlotEnv φ) (E : ReadEnv) : List (String × Handler (BarsConf φ) Fail) :=
  liftOpts (·.scales) (fun c v => { c with scales := v }) (scaleOpts P E) ++ [
  ("data-x", onPart (·.x) (fun c v => { c with x := v }) (loadSimple P.readFile)),
  ("data-y", onPart (·.y) (fun c v => { c with y := v }) (loadSimple P.readFile)),
  ("data-x-high", onPart (·.x) (fun c v => { c with x := v }) (loadSimple P.readFile)),
  ("data-y-high", onPart (·.y) (fun c v => { c with y := v }) (loadSimple P.readFile)),
  ("data-x-low", onPart (·.xoffset) (fun c v => { c with xoffset := v }) (loadSimple P.readFile)),
  ("data-y-low", onPart (·.yoffset) (fun c v => { c with yoffset := v }) (loadSimple P.readFile)),
  ("width", onPart (·.size) (fun c v => { c with size := v }) (sizeVar E)),
  ("widths", onPart (·.sizes) (fun c v => { c with sizes := v }) (loadMeasures P.stod P.readFile)),
  ("offset", onPart (·.offset) (fun c v => { c with offset := v }) (sizeVar E)),
  ("offsets", onPart (·.offsets) (fun c v => { c with offsets := v }) (loadMeasures P.stod P.readFile)),
  ("stroke-color", onPart (·.stroke) (fun c v => { c with stroke := v }) (strokeColor E)),
  ("stroke-width", onPart (·.stroke) (fun c v => { c with stroke := v }) (strokeWidth E)),
  ("stroke-style", onPart (·.stroke) (fun c v => { c with stroke := v }) (readStrokeStyle E)),
  ("fill", onPart (·.fill) (fun c v => { c with fill := v }) (readFillStyle E)),
  ("color", callAll [
    onPart (·.stroke) (fun c v => { c with stroke := v }) (strokeColor E),
    onPart (·.fill) (fun c v => { c with fill := v }) (readFillStyleSolid E)]),
  ("direction", field (fun args _ => readDirection args) fun c v => { c with direction := v }),
  ("labels", onPart (·.labels) (fun c v => { c with labels := v }) (stringsVar P)),
  ("label-font-size", onPart (·.labelFontSize) (fun c v => { c with labelFontSize := v }) (sizeVar E)),
  ("label-color", onPart (·.labelColor) (fun c v => { c with labelColor := v }) (colorVar E)),
  ("label-padding", onPart (·.labelPadding) (fun c v => { c with labelPadding := v }) (measureVar P))]

/-- bars.cc:248-254: the defaults. -/
def barsDefault (s : PlotState φ) : BarsConf φ where
  scales := s.scales
  labelFonts := s.layer.fonts
  labelFontSize := s.fontSize

/-- bars.cc:308-322, areas.cc:331-345: the lengths of the data. -/
def rangeCheck (x xoffset y yoffset : DataBuffer (Option ℝ)) : Bool :=
  decide (databufLen x = databufLen y) &&
  (decide (databufLen xoffset = 0) || decide (databufLen x = databufLen xoffset)) &&
  (decide (databufLen yoffset = 0) || decide (databufLen y = databufLen yoffset))

/-- bars.cc:241-325 `bars_configure`. -/
def barsConfigure (P : PlotEnv φ) (s : PlotState φ) (args : List Expr) : Except Fail (BarsConf φ) :=
  match walkRead (optTable (barsOpts P (s.env P))) args (barsDefault s) with
  | (_, some f) => .error f
  | (c, none) => if rangeCheck c.x c.xoffset c.y c.yoffset then .ok c else .error (.error .plot)

/-- bars.cc:71-87, 154-170: the translated data: x, y, the offsets in the direction of the bars, and the base line. -/
def barsData (P : PlotEnv φ) (c : BarsConf φ) : Except Fail ((List ℝ × List ℝ) × (List ℝ × ℝ)) :=
  match c.direction with
  | .horizontal => do
    let x ← translateBuf P c.scales.x c.x
    let o ← translateBuf P c.scales.x c.xoffset
    let y ← translateBuf P c.scales.y c.y
    let z ← translateZero c.scales.x
    return ((x, y), (o, z))
  | .vertical => do
    let x ← translateBuf P c.scales.x c.x
    let y ← translateBuf P c.scales.y c.y
    let o ← translateBuf P c.scales.y c.yoffset
    let z ← translateZero c.scales.y
    return ((x, y), (o, z))

open Classical in
/-- bars.cc:95-108, 126-128, 178-191, 209-211: sizes, offsets and paddings as numbers. -/
def BarsConf.config (c : BarsConf φ) (s : PlotState φ) : BarsConfig where
  size := if c.size = 0 then s.pt 10 else c.size
  sizes := c.sizes.map (·.value)
  offset := c.offset
  offsets := c.offsets.map (·.value)
  labels := c.labels
  labelPadding := (measureOr c.labelPadding ⟨.unit, unitFromEm 0.6 c.labelFontSize⟩).value

/-- bars.cc:66-239 `bars_draw_horizontal`, `bars_draw_vertical`. -/
def barsRender (P : PlotEnv φ) (c : BarsConf φ) (s : PlotState φ) : PlotState φ × Option Fail :=
  match barsData P c with
  | .error f => (s, some f)
  | .ok ((xs, ys), (os, z)) =>
    drawOn s (renderOps? P ⟨c.stroke, c.fill, c.labelFonts, c.labelFontSize, c.labelColor⟩ (match c.direction with
      | .horizontal => do
        let bs ← barsHorizontal s.clip (c.config s) xs ys os z
        let ls ← barsLabels false s.clip (c.config s) xs ys
        return bs ++ ls
      | .vertical => do
        let bs ← barsVertical s.clip (c.config s) xs ys os z
        let ls ← barsLabels true s.clip (c.config s) xs ys
        return bs ++ ls) s.layer)

/-- bars.cc:327-344 `bars_draw`. -/
def barsCmd (P : PlotEnv φ) : Handler (PlotState φ) Fail := withConfig (barsConfigure P) (barsRender P)

/-- bars.cc:346-371 `bars_autorange`. -/
def barsAutorange (P : PlotEnv φ) : Handler (PlotState φ) Fail := withConfig (barsConfigure P) fun c =>
  onPart (·.scales) (fun s v => { s with scales := v }) (fun _ => fitAll P [c.x, c.xoffset] [c.y, c.yoffset]) []

/-! ## areas -/

/-- areas.cc:37-50 `struct PlotAreaConfig`. -/
structure AreasConf where
  refs : DataRefs := {}
  direction : Direction := .vertical
  x : DataBuffer (Option ℝ) := {}
  xoffset : DataBuffer (Option ℝ) := {}
  y : DataBuffer (Option ℝ) := {}
  yoffset : DataBuffer (Option ℝ) := {}
  scales : Scales
  strokeHigh : StrokeState := .default
  strokeLow : StrokeState := .default
  fill : FillStyle := ⟨some .black, none⟩

/-- areas.cc:219-312, the options. -/
def areasOpts (P : PlotEnv φ) (E : ReadEnv) : List (String × Handler AreasConf Fail) :=
  liftOpts (·.refs) (fun c v => { c with refs := v }) dataOpts ++
  liftOpts (·.scales) (fun c v => { c with scales := v }) (scaleOpts P E) ++ [
  ("data-x-high", onPart (·.x) (fun c v => { c with x := v }) (loadSimple P.readFile)),
  ("data-y-high", onPart (·.y) (fun c v => { c with y := v }) (loadSimple P.readFile)),
  ("data-x-low", onPart (·.xoffset) (fun c v => { c with xoffset := v }) (loadSimple P.readFile)),
  ("data-y-low", onPart (·.yoffset) (fun c v => { c with yoffset := v }) (loadSimple P.readFile)),
  ("stroke-color", callAll [
    onPart (·.strokeHigh) (fun c v => { c with strokeHigh := v }) (strokeColor E),
    onPart (·.strokeLow) (fun c v => { c with strokeLow := v }) (strokeColor E)]),
  ("stroke-width", callAll [
    onPart (·.strokeHigh) (fun c v => { c with strokeHigh := v }) (strokeWidth E),
    onPart (·.strokeLow) (fun c v => { c with strokeLow := v }) (strokeWidth E)]),
  ("stroke-style", callAll [
    onPart (·.strokeHigh) (fun c v => { c with strokeHigh := v }) (readStrokeStyle E),
    onPart (·.strokeLow) (fun c v => { c with strokeLow := v }) (readStrokeStyle E)]),
  ("stroke-high-color", onPart (·.strokeHigh) (fun c v => { c with strokeHigh := v }) (strokeColor E)),
  ("stroke-high-width", onPart (·.strokeHigh) (fun c v => { c with strokeHigh := v }) (strokeWidth E)),
  ("stroke-high-style", onPart (·.strokeHigh) (fun c v => { c with strokeHigh := v }) (readStrokeStyle E)),
  ("stroke-low-color", onPart (·.strokeLow) (fun c v => { c with strokeLow := v }) (strokeColor E)),
  ("stroke-low-width", onPart (·.strokeLow) (fun c v => { c with strokeLow := v }) (strokeWidth E)),
  ("stroke-low-style", onPart (·.strokeLow) (fun c v => { c with strokeLow := v }) (readStrokeStyle E)),
  ("fill", onPart (·.fill) (fun c v => { c with fill := v }) (readFillStyle E)),
  ("color", callAll [
    onPart (·.strokeHigh) (fun c v => { c with strokeHigh := v }) (strokeColor E),
    onPart (·.strokeLow) (fun c v => { c with strokeLow := v }) (strokeColor E),
    onPart (·.fill) (fun c v => { c with fill := v }) (readFillStyleSolid E)]),
  ("direction", field (fun args _ => readDirection args) fun c v => { c with direction := v })]

/-- areas.cc:205-211: the defaults. -/
def areasDefault (s : PlotState φ) : AreasConf where
  scales := s.scales

/-- areas.cc:198-348 `areas_configure`. -/
def areasConfigure (P : PlotEnv φ) (s : PlotState φ) (args : List Expr) : Except Fail AreasConf :=
  match walkRead (optTable (areasOpts P (s.env P))) args (areasDefault s) with
  | (_, some f) => .error f
  | (c, none) =>
    match dataLoadPoints2 P.readFile P.geoPoints c.refs.path c.refs.format c.refs.refX c.refs.refY c.x c.y with
    | ((x, y), .ok _) =>
      if rangeCheck x c.xoffset y c.yoffset then .ok { c with x := x, y := y } else .error (.error .plot)
    | (_, .error _) => .error (.error .data)
    | (_, .thrown) => .error .thrown
    | (_, .undefined) => .error .undefined

/-- areas.cc:118-124, 190-196: the three shapes with their styles. -/
def renderArea (c : AreasConf) (ops : Option (List (PlotOp Marker Color))) (L : Layer φ) : Layer φ × Option Fail :=
  match ops with
  | some [.path shape, .path high, .path low] =>
    (renderPath c.strokeLow .default false low (renderPath c.strokeHigh .default false high
      (renderPath .default c.fill false shape L)), none)
  | _ => (L, some .undefined)

/-- areas.cc:60-79, 132-151: the translated data: x, x offsets, y, y offsets. -/
def areasData (P : PlotEnv φ) (c : AreasConf) : Except Fail ((List ℝ × List ℝ) × (List ℝ × List ℝ)) := do
  let x ← translateBuf P c.scales.x c.x
  let xo ← translateBuf P c.scales.x c.xoffset
  let y ← translateBuf P c.scales.y c.y
  let yo ← translateBuf P c.scales.y c.yoffset
  return ((x, xo), (y, yo))

/-- areas.cc:54-196 `areas_draw_horizontal`, `areas_draw_vertical`. -/
def areasRender (P : PlotEnv φ) (c : AreasConf) (s : PlotState φ) : PlotState φ × Option Fail :=
  match areasData P c with
  | .error f => (s, some f)
  | .ok ((xs, xos), (ys, yos)) =>
    match c.direction with
    | .horizontal => match translateZero c.scales.x with
      | .error f => (s, some f)
      | .ok z => drawOn s (renderArea c (areasDraw false s.clip xs ys xos z) s.layer)
    | .vertical => match translateZero c.scales.y with
      | .error f => (s, some f)
      | .ok z => drawOn s (renderArea c (areasDraw true s.clip xs ys yos z) s.layer)

/-- areas.cc:350-367 `areas_draw`. -/
def areasCmd (P : PlotEnv φ) : Handler (PlotState φ) Fail := withConfig (areasConfigure P) (areasRender P)

/-- areas.cc:369-394 `areas_autorange`. -/
def areasAutorange (P : PlotEnv φ) : Handler (PlotState φ) Fail := withConfig (areasConfigure P) fun c =>
  onPart (·.scales) (fun s v => { s with scales := v }) (fun _ => fitAll P [c.x, c.xoffset] [c.y, c.yoffset]) []

/-! ## errorbars -/

/-- errorbars.cc:38-51 `struct ErrorbarsElement`, with the local variables of `errorbars_configure`. -/
structure ErrorbarsConf where
  x : DataBuffer (Option ℝ) := {}
  xLow : DataBuffer (Option ℝ) := {}
  xHigh : DataBuffer (Option ℝ) := {}
  y : DataBuffer (Option ℝ) := {}
  yLow : DataBuffer (Option ℝ) := {}
  yHigh : DataBuffer (Option ℝ) := {}
  scales : Scales
  barWidth : ℝ
  series : SeriesData := {}
  colors : List Color := []
  strokeColor : Color := .black
  strokeWidth : ℝ

/-- errorbars.cc:183-206, the options. -/
def errorbarsOpts (P : PlotEnv φ) (E : ReadEnv) : List (String × Handler ErrorbarsConf Fail) :=
  liftOpts (·.scales) (fun c v => { c with scales := v }) (scaleOpts P E) ++
  liftOpts (·.series) (fun c v => { c with series := v }) (colorOpts P E) ++ [
  ("data-x", onPart (·.x) (fun c v => { c with x := v }) (loadSimple P.readFile)),
  ("data-y", onPart (·.y) (fun c v => { c with y := v }) (loadSimple P.readFile)),
  ("data-x-low", onPart (·.xLow) (fun c v => { c with xLow := v }) (loadSimple P.readFile)),
  ("data-x-high", onPart (·.xHigh) (fun c v => { c with xHigh := v }) (loadSimple P.readFile)),
  ("data-y-low", onPart (·.yLow) (fun c v => { c with yLow := v }) (loadSimple P.readFile)),
  ("data-y-high", onPart (·.yHigh) (fun c v => { c with yHigh := v }) (loadSimple P.readFile)),
  ("width", onPart (·.barWidth) (fun c v => { c with barWidth := v }) (sizeVar E)),
  ("color", onPart (·.strokeColor) (fun c v => { c with strokeColor := v }) (colorVar E)),
  ("stroke-color", onPart (·.strokeColor) (fun c v => { c with strokeColor := v }) (colorVar E)),
  ("stroke-width", onPart (·.strokeWidth) (fun c v => { c with strokeWidth := v }) (sizeVar E))]

/-- errorbars.cc:171-176: the defaults. -/
def errorbarsDefault (s : PlotState φ) : ErrorbarsConf where
  scales := s.scales
  barWidth := s.pt 6
  strokeWidth := s.pt 1

/-- errorbars.cc:212-254: which way the error bars go; `none`: neither or unequal lengths. -/
def errorbarsCheck (c : ErrorbarsConf) : Option Direction :=
  let v := decide (databufLen c.x > 0) && decide (databufLen c.yLow > 0) && decide (databufLen c.yHigh > 0) &&
    decide (databufLen c.y = 0)
  let h := decide (databufLen c.y > 0) && decide (databufLen c.xLow > 0) && decide (databufLen c.xHigh > 0) &&
    decide (databufLen c.x = 0)
  if v then
    if databufLen c.x ≠ databufLen c.yLow ∨ databufLen c.x ≠ databufLen c.yHigh then none else some .vertical
  else if h then
    if databufLen c.y ≠ databufLen c.xLow ∨ databufLen c.y ≠ databufLen c.xHigh then none else some .horizontal
  else none

/-- errorbars.cc:164-279 `errorbars_configure`. -/
def errorbarsConfigure (P : PlotEnv φ) (s : PlotState φ) (args : List Expr) : Except Fail ErrorbarsConf :=
  match walkRead (optTable (errorbarsOpts P (s.env P))) args (errorbarsDefault s) with
  | (_, some f) => .error f
  | (c, none) => match errorbarsCheck c with
    | none => .error (.error .plot)
    | some _ => do
      let colors ← convertAllWith (convertColor P c.series.colorMap) c.series.colors
      return { c with colors := colors }

/-- errorbars.cc:53-81: one error bar on the layer; equal ends have no direction (NaN). -/
def renderErrorbar (width barWidth : ℝ) (color : Color) (ends : Vec2 × Vec2) (L : Layer φ) : Layer φ × Option Fail :=
  match errorbarBar barWidth ends.1 ends.2 with
  | none => (L, some .undefined)
  | some ps => (ps.foldl (fun L p => renderPath { StrokeState.default with width := width, color := color } .default false p L) L,
      none)

/-- errorbars.cc:90-119: the translated data. -/
def errorbarsData (P : PlotEnv φ) (c : ErrorbarsConf) :
    Except Fail ((List ℝ × List ℝ × List ℝ) × (List ℝ × List ℝ × List ℝ)) := do
  let x ← translateBuf P c.scales.x c.x
  let xl ← translateBuf P c.scales.x c.xLow
  let xh ← translateBuf P c.scales.x c.xHigh
  let y ← translateBuf P c.scales.y c.y
  let yl ← translateBuf P c.scales.y c.yLow
  let yh ← translateBuf P c.scales.y c.yHigh
  return ((x, xl, xh), (y, yl, yh))

/-- errorbars.cc:121-159: the bars of one direction; the colours are counted anew for each direction. -/
def renderErrorbars (c : ErrorbarsConf) (l : List (Vec2 × Vec2)) : List (Layer φ → Layer φ × Option Fail) :=
  l.zipIdx.map fun p => renderErrorbar c.strokeWidth c.barWidth (cycleOr c.strokeColor c.colors p.2) p.1

/-- errorbars.cc:83-162 `errorbars_draw`. -/
def errorbarsRender (P : PlotEnv φ) (c : ErrorbarsConf) (s : PlotState φ) : PlotState φ × Option Fail :=
  match errorbarsData P c with
  | .error f => (s, some f)
  | .ok ((x, xl, xh), (y, yl, yh)) =>
    drawOn s (tryChain (renderErrorbars c (errorbarsDraw s.clip x [] [] [] yl yh) ++
      renderErrorbars c (errorbarsDraw s.clip [] xl xh y [] [])) s.layer)

/-- errorbars.cc:281-292. -/
def errorbarsCmd (P : PlotEnv φ) : Handler (PlotState φ) Fail := withConfig (errorbarsConfigure P) (errorbarsRender P)

/-- errorbars.cc:294-325 `errorbars_autorange`. -/
def errorbarsAutorange (P : PlotEnv φ) : Handler (PlotState φ) Fail := withConfig (errorbarsConfigure P) fun c =>
  onPart (·.scales) (fun s v => { s with scales := v })
    (fun _ => fitAll P [c.x, c.xLow, c.xHigh] [c.y, c.yLow, c.yHigh]) []

/-! ## rectangles -/

/-- rectangles.cc:41-52 `struct PlotRectanglesConfig`, with the local variables of `rectangles_configure`. -/
structure RectanglesConf where
  refs : DataRefs := {}
  x : DataBuffer (Option ℝ) := {}
  y : DataBuffer (Option ℝ) := {}
  scales : Scales
  sizeX : DataBuffer (Option ℝ) := {}
  sizeY : DataBuffer (Option ℝ) := {}
  sizeXDefault : ℝ := 0
  sizeYDefault : ℝ := 0
  color : Color := .black
  series : SeriesData := {}
  colors : List Color := []

/-- rectangles.cc:131-171, the options. -/
def rectanglesOpts (P : PlotEnv φ) (E : ReadEnv) : List (String × Handler RectanglesConf Fail) :=
  liftOpts (·.refs) (fun c v => { c with refs := v }) dataOpts ++
  liftOpts (·.scales) (fun c v => { c with scales := v }) (scaleOpts P E) ++
  liftOpts (·.series) (fun c v => { c with series := v }) (colorOpts P E) ++ [
  ("data-size-x", onPart (·.sizeX) (fun c v => { c with sizeX := v }) (loadSimple P.readFile)),
  ("data-size-y", onPart (·.sizeY) (fun c v => { c with sizeY := v }) (loadSimple P.readFile)),
  ("data-size", callAll [
    onPart (·.sizeX) (fun c v => { c with sizeX := v }) (loadSimple P.readFile),
    onPart (·.sizeY) (fun c v => { c with sizeY := v }) (loadSimple P.readFile)]),
  ("size", callAll [
    onPart (·.sizeXDefault) (fun c v => { c with sizeXDefault := v }) (sizeVar E),
    onPart (·.sizeYDefault) (fun c v => { c with sizeYDefault := v }) (sizeVar E)]),
  ("size-x", onPart (·.sizeXDefault) (fun c v => { c with sizeXDefault := v }) (sizeVar E)),
  ("size-y", onPart (·.sizeYDefault) (fun c v => { c with sizeYDefault := v }) (sizeVar E)),
  ("color", onPart (·.color) (fun c v => { c with color := v }) (colorVar E))]

/-- rectangles.cc:116-121: the defaults. -/
def rectanglesDefault (s : PlotState φ) : RectanglesConf where
  scales := s.scales

/-- rectangles.cc:109-216 `rectangles_configure`. -/
def rectanglesConfigure (P : PlotEnv φ) (s : PlotState φ) (args : List Expr) : Except Fail RectanglesConf :=
  match walkRead (optTable (rectanglesOpts P (s.env P))) args (rectanglesDefault s) with
  | (_, some f) => .error f
  | (c, none) => do
    let (x, y) ← loadPoints P c.refs c.x c.y
    let colors ← convertAllWith (convertColor P c.series.colorMap) c.series.colors
    return { c with x := x, y := y, colors := colors }

/-- rectangles.cc:83-105: the rectangle with number `i`. -/
def renderRect (c : RectanglesConf) (op : PlotOp Marker Color) (i : Nat) (L : Layer φ) : Layer φ × Option Fail :=
  match op with
  | .path p => (renderPath .default ⟨some (cycleOr c.color c.colors i), none⟩ true p L, none)
  | _ => (L, some .undefined)

/-- rectangles.cc:62-81: the translated data. -/
def rectanglesData (P : PlotEnv φ) (c : RectanglesConf) : Except Fail ((List ℝ × List ℝ) × (List ℝ × List ℝ)) := do
  let x ← translateBuf P c.scales.x c.x
  let y ← translateBuf P c.scales.y c.y
  let sx ← translateMagnitudeBuf P c.scales.x c.sizeX
  let sy ← translateMagnitudeBuf P c.scales.y c.sizeY
  return ((x, y), (sx, sy))

/-- rectangles.cc:54-107 `rectangles_draw`. -/
def rectanglesRender (P : PlotEnv φ) (c : RectanglesConf) (s : PlotState φ) : PlotState φ × Option Fail :=
  match rectanglesData P c with
  | .error f => (s, some f)
  | .ok ((xs, ys), (sx, sy)) =>
    match (rectanglesDraw s.clip ⟨c.sizeXDefault, c.sizeYDefault⟩ xs ys sx sy : Option (List (PlotOp Marker Color))) with
    | none => (s, some .undefined)
    | some ops => drawOn s (tryChain (ops.zipIdx.map fun p => renderRect c p.1 p.2) s.layer)

/-- rectangles.cc:218-229. -/
def rectanglesCmd (P : PlotEnv φ) : Handler (PlotState φ) Fail := withConfig (rectanglesConfigure P) (rectanglesRender P)

/-- rectangles.cc:231-250 `rectangles_autorange`. -/
def rectanglesAutorange (P : PlotEnv φ) : Handler (PlotState φ) Fail := withConfig (rectanglesConfigure P) fun c =>
  onPart (·.scales) (fun s v => { s with scales := v }) (fun _ => fitAll P [c.x] [c.y]) []

/-! ## vectors -/

/-- vectors.cc:40-53 `struct PlotVectorsConfig`, with the local variables of `vectors_configure`; the shape is always
the default arrow. -/
structure VectorsConf where
  refs : DataRefs := {}
  x : DataBuffer (Option ℝ) := {}
  y : DataBuffer (Option ℝ) := {}
  dx : DataBuffer (Option ℝ) := {}
  dy : DataBuffer (Option ℝ) := {}
  scales : Scales
  color : Color := .black
  series : SeriesData := {}
  colors : List Color := []
  size : ℝ
  sizes : List ℝ := []

/-- vectors.cc:136-159, the options. -/
def vectorsOpts (P : PlotEnv φ) (E : ReadEnv) : List (String × Handler VectorsConf Fail) :=
  liftOpts (·.refs) (fun c v => { c with refs := v }) dataOpts ++
  liftOpts (·.scales) (fun c v => { c with scales := v }) (scaleOpts P E) ++
  liftOpts (·.series) (fun c v => { c with series := v }) (colorOpts P E ++ sizeOpts P E) ++ [
  ("data-dx", onPart (·.dx) (fun c v => { c with dx := v }) (loadSimple P.readFile)),
  ("data-dy", onPart (·.dy) (fun c v => { c with dy := v }) (loadSimple P.readFile)),
  ("color", onPart (·.color) (fun c v => { c with color := v }) (colorVar E)),
  ("size", onPart (·.size) (fun c v => { c with size := v }) (sizeVar E))]

/-- vectors.cc:118-123: the defaults. -/
def vectorsDefault (s : PlotState φ) : VectorsConf where
  scales := s.scales
  size := s.pt 1

/-- vectors.cc:111-224 `vectors_configure`. -/
def vectorsConfigure (P : PlotEnv φ) (s : PlotState φ) (args : List Expr) : Except Fail VectorsConf :=
  match walkRead (optTable (vectorsOpts P (s.env P))) args (vectorsDefault s) with
  | (_, some f) => .error f
  | (c, none) => do
    let (x, y) ← loadPoints P c.refs c.x c.y
    let colors ← convertAllWith (convertColor P c.series.colorMap) c.series.colors
    let sizes ← convertAllWith (convertSize P c.series.sizeMap) c.series.sizes
    return { c with x := x, y := y, colors := colors, sizes := sizes }

/-- vectors.cc:61-80: the translated data. -/
def vectorsData (P : PlotEnv φ) (c : VectorsConf) : Except Fail ((List ℝ × List ℝ) × (List ℝ × List ℝ)) := do
  let x ← translateBuf P c.scales.x c.x
  let y ← translateBuf P c.scales.y c.y
  let dx ← translateMagnitudeBuf P c.scales.x c.dx
  let dy ← translateMagnitudeBuf P c.scales.y c.dy
  return ((x, y), (dx, dy))

/-- vectors.cc:55-109 `vectors_draw`. -/
def vectorsRender (P : PlotEnv φ) (c : VectorsConf) (s : PlotState φ) : PlotState φ × Option Fail :=
  match vectorsData P c with
  | .error f => (s, some f)
  | .ok ((xs, ys), (dx, dy)) =>
    drawOn s (renderOps? P {} (vectorsDraw s.clip Marker.disk [] c.size c.sizes c.color c.colors xs ys dx dy) s.layer)

/-- vectors.cc:226-236. -/
def vectorsCmd (P : PlotEnv φ) : Handler (PlotState φ) Fail := withConfig (vectorsConfigure P) (vectorsRender P)

/-- vectors.cc:238-257 `vectors_autorange`. -/
def vectorsAutorange (P : PlotEnv φ) : Handler (PlotState φ) Fail := withConfig (vectorsConfigure P) fun c =>
  onPart (·.scales) (fun s v => { s with scales := v }) (fun _ => fitAll P [c.x] [c.y]) []

/-! ## labels -/

/-- labels.cc:36-46 `struct PlotLabelsConfig`, with the local variables of `labels_configure`. -/
structure LabelsConf (φ : Type) where
  refs : DataRefs := {}
  x : DataBuffer (Option ℝ) := {}
  y : DataBuffer (Option ℝ) := {}
  scales : Scales
  labels : List Str := []
  labelFonts : List φ
  labelPadding : Measure := ⟨.unit, 0⟩
  labelFontSize : ℝ
  labelColor : Color := .black

/-- labels.cc:110-131, the options. -/
def labelsOpts (P : PlotEnv φ) (E : ReadEnv) : List (String × Handler (LabelsConf φ) Fail) :=
  liftOpts (·.refs) (fun c v => { c with refs := v }) dataOpts ++
  liftOpts (·.scales) (fun c v => { c with scales := v }) (scaleOpts P E) ++ [
  ("labels", onPart (·.labels) (fun c v => { c with labels := v }) (stringsVar P)),
  ("label-font", field (fun args _ => readFont P.text args) fun c f => { c with labelFonts := f :: c.labelFonts }),
  ("label-font-size", onPart (·.labelFontSize) (fun c v => { c with labelFontSize := v }) (sizeVar E)),
  ("label-color", onPart (·.labelColor) (fun c v => { c with labelColor := v }) (colorVar E)),
  ("label-padding", onPart (·.labelPadding) (fun c v => { c with labelPadding := v }) (measureVar P)),
  ("font", field (fun args _ => readFont P.text args) fun c f => { c with labelFonts := f :: c.labelFonts })]

/-- labels.cc:97-102: the defaults. -/
def labelsDefault (s : PlotState φ) : LabelsConf φ where
  scales := s.scales
  labelFonts := s.layer.fonts
  labelFontSize := s.fontSize

/-- labels.cc:90-156 `labels_configure`. -/
def labelsConfigure (P : PlotEnv φ) (s : PlotState φ) (args : List Expr) : Except Fail (LabelsConf φ) :=
  match walkRead (optTable (labelsOpts P (s.env P))) args (labelsDefault s) with
  | (_, some f) => .error f
  | (c, none) => do
    let (x, y) ← loadPoints P c.refs c.x c.y
    return { c with x := x, y := y }

/-- labels.cc:48-88 `labels_draw`. -/
def labelsRender (P : PlotEnv φ) (c : LabelsConf φ) (s : PlotState φ) : PlotState φ × Option Fail :=
  match translateBuf P c.scales.x c.x with
  | .error f => (s, some f)
  | .ok xs => match translateBuf P c.scales.y c.y with
    | .error f => (s, some f)
    | .ok ys =>
      drawOn s (renderOps? P ⟨.default, .default, c.labelFonts, c.labelFontSize, c.labelColor⟩
        (labelsDraw s.clip (measureOr c.labelPadding ⟨.unit, unitFromEm 0.8 c.labelFontSize⟩).value c.labels xs ys) s.layer)

/-- labels.cc:158-169. -/
def labelsCmd (P : PlotEnv φ) : Handler (PlotState φ) Fail := withConfig (labelsConfigure P) (labelsRender P)

/-- labels.cc:171-190 `labels_autorange`. -/
def labelsAutorange (P : PlotEnv φ) : Handler (PlotState φ) Fail := withConfig (labelsConfigure P) fun c =>
  onPart (·.scales) (fun s v => { s with scales := v }) (fun _ => fitAll P [c.x] [c.y]) []

/-! ## polygons -/

/-- polygons.cc:39-45 `struct PlotPolygonsConfig`. -/
structure PolygonsConf where
  polys : List Poly2 := []
  scales : Scales
  fill : FillStyle := .default
  stroke : StrokeState

/-- data.cc:415-458 `data_load_polys2`: a list headed by the bare word `geojson`, then a file name. -/
def loadPolys (P : PlotEnv φ) : Handler (List Poly2) Fail := fun args old =>
  match args with
  | .list (.literal h :: es) :: _ =>
    if h = "geojson".toList then
      match es with
      | e :: _ => if e.isValue then
          let r := P.geoPolys e.getValue
          (old ++ r.1, failOf .data r.2)
        else (old, some (.error .expectedValue))
      | [] => (old, some (.error .expectedValue))
    else (old, some (.error .invalidValue))
  | .list (_ :: _) :: _ => (old, some (.error .invalidValue))
  | _ => (old, some (.error .notList))

/-- polygons.cc:59-80, the options. -/
def polygonsOpts (P : PlotEnv φ) (E : ReadEnv) : List (String × Handler PolygonsConf Fail) :=
  liftOpts (·.scales) (fun c v => { c with scales := v }) (limitOpts P E) ++ [
  ("data", onPart (·.polys) (fun c v => { c with polys := v }) (loadPolys P)),
  ("color", callAll [
    onPart (·.stroke) (fun c v => { c with stroke := v }) (strokeColor E),
    onPart (·.fill) (fun c v => { c with fill := v }) (readFillStyleSolid E)]),
  ("fill", onPart (·.fill) (fun c v => { c with fill := v }) (readFillStyle E)),
  ("stroke-color", onPart (·.stroke) (fun c v => { c with stroke := v }) (strokeColor E)),
  ("stroke-width", onPart (·.stroke) (fun c v => { c with stroke := v }) (strokeWidth E)),
  ("stroke-style", onPart (·.stroke) (fun c v => { c with stroke := v }) (readStrokeStyle E))]

/-- polygons.cc:54-56: the defaults. -/
def polygonsDefault (s : PlotState φ) : PolygonsConf where
  scales := s.scales
  stroke := { StrokeState.default with width := s.pt 1 }

/-- polygons.cc:87-92: the boundary vertices are fitted, holes are not. -/
def fitPolys (ps : List Poly2) (s : Scales) : Scales :=
  (ps.flatMap (·.boundary)).foldl (fun s v => ⟨scaleFit s.x v.x, scaleFit s.y v.y⟩) s

/-- polygons.cc:47-95 `polygons_configure`. -/
def polygonsConfigure (P : PlotEnv φ) (s : PlotState φ) (args : List Expr) : Except Fail PolygonsConf :=
  match walkRead (optTable (polygonsOpts P (s.env P))) args (polygonsDefault s) with
  | (_, some f) => .error f
  | (c, none) => .ok { c with scales := fitPolys c.polys c.scales }

/-- The hints are shared (scale.h:47): what is fitted into the copy of the scale reaches the scales of the plot. -/
def shareHints (c : Scales) (s : PlotState φ) : PlotState φ :=
  { s with scales := ⟨{ s.scales.x with hints := c.x.hints }, { s.scales.y with hints := c.y.hints }⟩ }

/-- polygons.cc:107-116: the position of a coordinate; NaN excluded. -/
def polyPoint (clip : Rect) (c : Scales) (v : Vec2) : Option Vec2 := do
  let x ← scaleTranslate .exact c.x v.x
  let y ← scaleTranslate .exact c.y v.y
  return ⟨clamp01 x * clip.w + clip.x, clamp01 y * clip.h + clip.y⟩

def polyTransform (clip : Rect) (c : Scales) (p : Poly2) : Option Poly2 := do
  let b ← p.boundary.mapM (polyPoint clip c)
  return { p with boundary := b }

/-- polygons.cc:97-124 `polygons_draw`. -/
def polygonsCmd (P : PlotEnv φ) : Handler (PlotState φ) Fail := withConfig (polygonsConfigure P) fun c s0 =>
  let s := shareHints c.scales s0
  match c.polys.mapM (polyTransform s.clip c.scales) with
  | none => (s, some .undefined)
  | some ps => drawOn s ((ps.foldl (fun L p => renderPath c.stroke c.fill false (pathFromPoly2 p) L) s.layer), none)

/-- polygons.cc:126-132 `polygons_autorange`. -/
def polygonsAutorange (P : PlotEnv φ) : Handler (PlotState φ) Fail := withConfig (polygonsConfigure P) fun c s =>
  (shareHints c.scales s, none)

/-! ## grid, background -/

/-- grid.cc:40-46 `struct GridlineDefinition`. -/
structure GridConf where
  scales : Scales
  layoutX : Option TickSpec := none
  layoutY : Option TickSpec := none
  stroke : StrokeState

/-- grid.cc:93-110, the options. -/
def gridOpts (P : PlotEnv φ) (E : ReadEnv) : List (String × Handler GridConf Fail) :=
  liftOpts (·.scales) (fun c v => { c with scales := v }) (scaleOpts P E) ++ [
  ("tick-placement-x", field (fun args _ => scaleConfigureLayout P.stod args) fun c v => { c with layoutX := some v }),
  ("tick-placement-y", field (fun args _ => scaleConfigureLayout P.stod args) fun c v => { c with layoutY := some v }),
  ("color", onPart (·.stroke) (fun c v => { c with stroke := v }) (strokeColor E)),
  ("stroke-color", onPart (·.stroke) (fun c v => { c with stroke := v }) (strokeColor E)),
  ("stroke-width", onPart (·.stroke) (fun c v => { c with stroke := v }) (strokeWidth E)),
  ("stroke-style", onPart (·.stroke) (fun c v => { c with stroke := v }) (readStrokeStyle E))]

/-- grid.cc:85-90: the defaults. -/
def gridDefault (s : PlotState φ) : GridConf where
  scales := s.scales
  stroke := { StrokeState.default with width := s.pt 1, color := ⟨0.9, 0.9, 0.9, 1⟩ }

/-- grid.cc:81-121, the configuration. -/
def gridConfigure (P : PlotEnv φ) (s : PlotState φ) (args : List Expr) : Except Fail GridConf :=
  match walkRead (optTable (gridOpts P (s.env P))) args (gridDefault s) with
  | (_, some f) => .error f
  | (c, none) => .ok c

/-- The positions a placement gives, NaN excluded. -/
def tickPositions (P : PlotEnv φ) (spec : TickSpec) (s : Scale) (fmt : Formatter) : Option (List ℝ × List Str) := do
  let l ← runTicks P.toS spec s fmt
  let ps ← l.positions.mapM id
  return (ps, l.labels)

/-- grid.cc:48-79 with 116-120 `plot_grid`. -/
def gridRender (P : PlotEnv φ) (c : GridConf) (s : PlotState φ) : PlotState φ × Option Fail :=
  match tickPositions P (c.layoutX.getD (defaultTicks c.scales.x none)) c.scales.x formatNoop,
    tickPositions P (c.layoutY.getD (defaultTicks c.scales.y none)) c.scales.y formatNoop with
  | some (xs, _), some (ys, _) => drawOn s (renderOps P { stroke := c.stroke } (gridDraw s.clip xs ys) s.layer)
  | _, _ => (s, some .undefined)

def gridCmd (P : PlotEnv φ) : Handler (PlotState φ) Fail := withConfig (gridConfigure P) (gridRender P)

/-- The local variables of plotgen.cc:160-163. -/
structure BackgroundConf where
  fill : FillStyle := .default
  stroke : StrokeState

/-- plotgen.cc:166-179, the options. -/
def backgroundOpts (E : ReadEnv) : List (String × Handler BackgroundConf Fail) := [
  ("color", callAll [
    onPart (·.stroke) (fun c v => { c with stroke := v }) (strokeColor E),
    onPart (·.fill) (fun c v => { c with fill := v }) (readFillStyleSolid E)]),
  ("fill", onPart (·.fill) (fun c v => { c with fill := v }) (readFillStyle E)),
  ("stroke-color", onPart (·.stroke) (fun c v => { c with stroke := v }) (strokeColor E)),
  ("stroke-width", onPart (·.stroke) (fun c v => { c with stroke := v }) (strokeWidth E)),
  ("stroke-style", onPart (·.stroke) (fun c v => { c with stroke := v }) (readStrokeStyle E))]

def backgroundConfigure (P : PlotEnv φ) (s : PlotState φ) (args : List Expr) : Except Fail BackgroundConf :=
  match walkRead (optTable (backgroundOpts (s.env P))) args ⟨.default, { StrokeState.default with width := s.pt 1 }⟩ with
  | (_, some f) => .error f
  | (c, none) => .ok c

/-- plotgen.cc:154-190 `plot_set_background`. -/
def backgroundCmd (P : PlotEnv φ) : Handler (PlotState φ) Fail := withConfig (backgroundConfigure P) fun c s =>
  drawOn s (renderPath c.stroke c.fill false (pathAddRect [] s.clip) s.layer, none)

end
end Clip
