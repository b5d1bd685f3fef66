import Verif.Model.PlotConf
/-!
# Model of `src/plot/axis.cc`

Exact arithmetic.  A tick position that is NaN makes the model stop with `undefined` (the code draws such shapes).
-/
namespace Clip
noncomputable section

/-- axis.cc:41 `enum class AxisAlign`. -/
inductive AxisAlign where | x | y | top | right | bottom | left
  deriving DecidableEq

/-- axis.cc:43 `enum class AxisLabelAttach`. -/
inductive AxisAttach where | top | right | bottom | left
  deriving DecidableEq

/-- axis.cc:51-95 `struct AxisDefinition`; a placement or formatter that is not set is `none`. -/
structure AxisDef (φ : Type) where
  align : AxisAlign := .x
  enable : Bool := true
  scale : Scale := {}
  title : Str := []
  titleColor : Color := .black
  titleOffset : ℝ := 0
  titlePadding : Measure := ⟨.unit, 0⟩
  titleFonts : List φ
  titleFontSize : ℝ
  titleRotate : ℝ := 0
  tickOffset : ℝ := 0
  tickLength : Measure := ⟨.unit, 0⟩
  tickPlacement : Option TickSpec := none
  labelPlacement : Option TickSpec := none
  labelFormat : Option FormatSpec := none
  labelAttach : AxisAttach := .top
  labelOffset : ℝ := 0
  labelPadding : Measure := ⟨.unit, 0⟩
  labelRotate : ℝ := 0
  labelFonts : List φ
  labelFontSize : ℝ
  labelColor : Color := .black
  border : StrokeState

variable {φ : Type}

/-- axis.cc:507-515, 926-993 of scale.cc: the placement of the labels after `axis_set_defaults`. -/
def AxisDef.labelSpec (a : AxisDef φ) : TickSpec := (layoutDefaults a.scale a.labelPlacement a.tickPlacement).1

/-- axis.cc:507-515: the placement of the ticks after `axis_set_defaults`. -/
def AxisDef.tickSpec (a : AxisDef φ) : TickSpec := (layoutDefaults a.scale a.labelPlacement a.tickPlacement).2

/-- format.cc: the configured formatter; a label that is undefined (an unsuitable base) is empty here. -/
def FormatSpec.formatter (P : PlotEnv φ) (f : FormatSpec) : Formatter := fun i v => (f.label P.stod P.strftime i v).getD []

/-- axis.cc:517-524: the formatter after `axis_set_defaults`. -/
def AxisDef.formatter (P : PlotEnv φ) (a : AxisDef φ) : Formatter :=
  match a.labelFormat with
  | some f => f.formatter P
  | none => if a.scale.kind = .categorical then formatNoop else formatFixed P.stod 1

/-- graphics/text.cc:26-45 `text_measure_label`: the text is one run, written from left to right. -/
def measureLabel (T : TextEnv φ) (dpi : ℝ) (fonts : List φ) (fontSize : ℝ) (text : Str) : Except Fail Rect :=
  match layoutLine (fun t => shapeFallback (asExcept fun f => T.shapeRun f ⟨t, .ltr⟩ (unitToPt fontSize dpi) dpi) fonts)
    .ltr [text] with
  | .error f => .error f
  | .ok r => .ok r.2

/-- `labels.labels[i]` for every position. -/
def labelled : List ℝ → List Str → Option (List (ℝ × Str))
  | [], _ => some []
  | _ :: _, [] => none
  | p :: ps, t :: ts => (labelled ps ts).map ((p, t) :: ·)

/-- axis.cc:102-103, 258-263: positions and texts of the labels. -/
def AxisDef.labels (P : PlotEnv φ) (a : AxisDef φ) : Option (List (ℝ × Str)) := do
  let (ps, ts) ← tickPositions P a.labelSpec a.scale (a.formatter P)
  labelled ps ts

open Classical in
/-- axis.cc:125-127, 159-161: the box of a rotated text. -/
def rotatedBox (b : Rect) (angle : ℝ) : Rect := if angle ≠ 0 then boxRotateBounds b angle else b

/-- axis.cc:129-139: what a label adds across the axis. -/
def labelExtent (al : AxisAlign) (b : Rect) : ℝ :=
  match al with
  | .x | .top | .bottom => b.h
  | .y | .left | .right => b.w

/-- axis.cc:163-175: what a title adds across the axis. -/
def titleExtent (al : AxisAlign) (b : Rect) : ℝ :=
  match al with
  | .x | .left | .right => b.w
  | .y | .top | .bottom => b.h

/-- axis.cc:106-140: the largest label, at least `m`. -/
def maxLabel (T : TextEnv φ) (dpi : ℝ) (a : AxisDef φ) : List (ℝ × Str) → ℝ → Except Fail ℝ
  | [], m => .ok m
  | l :: ls, m => match measureLabel T dpi a.labelFonts a.labelFontSize l.2 with
    | .error f => .error f
    | .ok b => maxLabel T dpi a ls (max m (labelExtent a.align (rotatedBox b a.labelRotate)))

/-- axis.cc:97-143 `axis_layout_labels`: what is added to the margin. -/
def axisLabelSize (P : PlotEnv φ) (dpi : ℝ) (a : AxisDef φ) : Except Fail ℝ :=
  match a.labels P with
  | none => .error .undefined
  | some ls => maxLabel P.text dpi a ls 0

/-- axis.cc:145-180 `axis_layout_title`. -/
def axisTitleSize (P : PlotEnv φ) (dpi : ℝ) (a : AxisDef φ) : Except Fail ℝ :=
  match measureLabel P.text dpi a.titleFonts a.titleFontSize a.title with
  | .error f => .error f
  | .ok b => .ok (titleExtent a.align (rotatedBox b a.titleRotate))

/-- `measure_or(label_padding, from_em(kDefaultLabelPaddingEM, label_font_size))`. -/
def AxisDef.labelPad (a : AxisDef φ) : ℝ := (measureOr a.labelPadding ⟨.unit, unitFromEm 0.8 a.labelFontSize⟩).value

/-- `measure_or(title_padding, from_em(em, title_font_size))`. -/
def AxisDef.titlePad (a : AxisDef φ) (em : ℝ) : ℝ := (measureOr a.titlePadding ⟨.unit, unitFromEm em a.titleFontSize⟩).value

/-- axis.cc:199-215: the default padding of the title. -/
def titleEm : AxisAlign → ℝ
  | .x | .top | .bottom => 0.8
  | .y | .left | .right => 0.6

/-- axis.cc:182-226 `axis_layout`: the margin, and the failure; what was added before a failure stays. -/
def axisLayout (P : PlotEnv φ) (dpi : ℝ) (a : AxisDef φ) : ℝ × Option Fail :=
  match axisLabelSize P dpi a with
  | .error f => (a.labelPad, some f)
  | .ok l =>
    if a.title = [] then (a.labelPad + l, none)
    else match axisTitleSize P dpi a with
      | .error f => (a.labelPad + l + a.titlePad (titleEm a.align), some f)
      | .ok t => (a.labelPad + l + a.titlePad (titleEm a.align) + t, none)

/-- `std::clamp(v, -1.0, 1.0)`. -/
def clampUnit (v : ℝ) : ℝ := if v < -1 then -1 else if 1 < v then 1 else v

/-- axis.cc:289-309, 429-449: how a label is aligned. -/
def attachAlign : AxisAttach → HAlign × VAlign
  | .left => (.left, .center)
  | .top => (.center, .top)
  | .bottom => (.center, .bottom)
  | .right => (.right, .center)

/-- graphics/draw_cmd.cc:98-108 `draw_line`. -/
def renderLine (stroke : StrokeState) (p q : Vec2) (L : Layer φ) : Layer φ :=
  renderPath stroke .default false [.moveTo p.x p.y, .lineTo q.x q.y] L

/-- axis.cc:250-260, 389-398: one tick mark.  `pt` makes a point of a coordinate across the axis and one along it. -/
def tickMark (a : AxisDef φ) (dpi : ℝ) (pt : ℝ → ℝ → Vec2) (at_ l0 l1 tick : ℝ) (L : Layer φ) : Layer φ :=
  let len := (measureOr a.tickLength ⟨.unit, unitFromPt 4 dpi⟩).value
  let t := at_ - len + len * (clampUnit a.tickOffset + 1) / 2
  renderLine a.border (pt t (l0 + (l1 - l0) * tick)) (pt (t + len) (l0 + (l1 - l0) * tick)) L

/-- axis.cc:279-314, 419-454: one label. -/
def axisLabel (P : PlotEnv φ) (a : AxisDef φ) (pt : ℝ → ℝ → Vec2) (at_ l0 l1 : ℝ) (l : ℝ × Str) (L : Layer φ) :
    Layer φ × Option Fail :=
  drawTextRotated P.text L l.2 (pt (at_ + a.labelPad * clampUnit a.labelOffset) (l0 + (l1 - l0) * l.1))
    (attachAlign a.labelAttach).1 (attachAlign a.labelAttach).2 a.labelRotate a.labelFonts a.labelFontSize a.labelColor

open Classical in
/-- axis.cc:317-363, 457-502: the title; `em` is the default padding (0.6 for vertical axes, 0.8 for horizontal ones). -/
def axisTitle (P : PlotEnv φ) (a : AxisDef φ) (em : ℝ) (pt : ℝ → ℝ → Vec2) (at_ l0 l1 labelSize : ℝ) (L : Layer φ) :
    Layer φ × Option Fail :=
  if a.title = [] then (L, none)
  else match axisTitleSize P L.size.dpi a with
    | .error f => (L, some f)
    | .ok size =>
      let pad := if (clampUnit a.titleOffset < 0) ↔ (clampUnit a.labelOffset < 0) then
          a.titlePad em + (labelSize + a.labelPad)
        else a.titlePad em
      drawTextRotated P.text L a.title
        (pt (at_ + (pad + size * 0.5) * clampUnit a.titleOffset) (l0 + (l1 - l0) * 0.5)) .center .center a.titleRotate
        a.titleFonts a.titleFontSize a.titleColor

/-- axis.cc:228-366 `plot_axis_vertical`, 368-505 `plot_axis_horizontal`: the two functions are the same but for the
order of the coordinates and the default padding of the title. -/
def axisDraw (P : PlotEnv φ) (a : AxisDef φ) (em : ℝ) (pt : ℝ → ℝ → Vec2) (at_ l0 l1 : ℝ) (L : Layer φ) :
    Layer φ × Option Fail :=
  let L1 := renderLine a.border (pt at_ l0) (pt at_ l1) L
  match tickPositions P a.tickSpec a.scale (a.formatter P) with
  | none => (L1, some .undefined)
  | some (ticks, _) =>
    let L2 := ticks.foldl (fun L t => tickMark a L.size.dpi pt at_ l0 l1 t L) L1
    match a.labels P with
    | none => (L2, some .undefined)
    | some ls => match axisLabelSize P L.size.dpi a with
      | .error f => (L2, some f)
      | .ok size =>
        match tryChain (ls.map (axisLabel P a pt at_ l0 l1)) L2 with
        | (L3, some f) => (L3, some f)
        | (L3, none) => axisTitle P a em pt at_ l0 l1 size L3

def ptVertical (c l : ℝ) : Vec2 := ⟨c, l⟩

def ptHorizontal (c l : ℝ) : Vec2 := ⟨l, c⟩

/-- axis.cc:530-598 `plot_axis(ctx, plot, config)`. -/
def plotAxis (P : PlotEnv φ) (a : AxisDef φ) (s : PlotState φ) : PlotState φ × Option Fail :=
  let b := s.clip
  drawOn s (match a.align with
    | .x => axisDraw P a 0.8 ptHorizontal (b.y + b.h * 0.5) b.x (b.x + b.w) s.layer
    | .top => axisDraw P a 0.8 ptHorizontal (b.y + b.h) b.x (b.x + b.w) s.layer
    | .bottom => axisDraw P a 0.8 ptHorizontal b.y b.x (b.x + b.w) s.layer
    | .y => axisDraw P a 0.6 ptVertical (b.x + b.w * 0.5) b.y (b.y + b.h) s.layer
    | .left => axisDraw P a 0.6 ptVertical b.x b.y (b.y + b.h) s.layer
    | .right => axisDraw P a 0.6 ptVertical (b.x + b.w) b.y (b.y + b.h) s.layer)

/-! ## Options -/

/-- format.cc:284-343 `format_configure`. -/
def readFormat (P : PlotEnv φ) (args : List Expr) : Except Fail FormatSpec :=
  match formatConfigure P.stod P.readFile args with
  | .ok f => .ok f
  | .error (.data o) => .error ((failOf .data o).getD (.error .data))
  | .error _ => .error (.error .invalidValue)

/-- axis.cc:617-625: the values of `align`. -/
def readAlign (args : List Expr) : Except Fail AxisAlign :=
  readEnum (fun w => if w = "x".toList then some .x else if w = "y".toList then some .y
    else if w = "top".toList then some .top else if w = "right".toList then some .right
    else if w = "bottom".toList then some .bottom else if w = "left".toList then some .left else none) args

/-- axis.cc:687-692, 903-938: the values of `label-attach`. -/
def readAttach (args : List Expr) : Except Fail AxisAttach :=
  readEnum (fun w => if w = "top".toList then some .top else if w = "right".toList then some .right
    else if w = "bottom".toList then some .bottom else if w = "left".toList then some .left else none) args

/-- sexpr_conv.cc:205-214 `expr_to_stroke_style`: only `none` does something, nothing is refused. -/
def borderStyle : Handler StrokeState Fail := fun args k =>
  if isWord args "none".toList then ({ k with width := 0 }, none) else (k, none)

def floatVar (E : ReadEnv) : Handler ℝ Fail := field (fun args _ => readFloat E args) fun _ v => v

namespace AxisOpt
variable (P : PlotEnv φ) (E : ReadEnv)

/-! The options of one axis, axis.cc:674-735 and 859-1243. -/

def scale : Handler (AxisDef φ) Fail :=
  onPart (·.scale) (fun a v => { a with scale := v }) fun args s => scaleConfigureKind P.stod P.readFile args s

def limit : Handler (AxisDef φ) Fail := onPart (·.scale) (fun a v => { a with scale := v }) (limitPair E)

def limitMin : Handler (AxisDef φ) Fail := onPart (·.scale) (fun a v => { a with scale := v }) (Clip.limitMin E)

def limitMax : Handler (AxisDef φ) Fail := onPart (·.scale) (fun a v => { a with scale := v }) (Clip.limitMax E)

def labelFont : Handler (AxisDef φ) Fail :=
  field (fun args _ => readFont P.text args) fun a f => { a with labelFonts := f :: a.labelFonts }

def labelPlacement : Handler (AxisDef φ) Fail :=
  field (fun args _ => scaleConfigureLayout P.stod args) fun a v => { a with labelPlacement := some v }

def labelFormat : Handler (AxisDef φ) Fail :=
  field (fun args _ => readFormat P args) fun a v => { a with labelFormat := some v }

def labelAttach : Handler (AxisDef φ) Fail :=
  field (fun args _ => readAttach args) fun a v => { a with labelAttach := v }

def labelOffset : Handler (AxisDef φ) Fail := onPart (·.labelOffset) (fun a v => { a with labelOffset := v }) (floatVar E)

def labelPadding : Handler (AxisDef φ) Fail :=
  onPart (·.labelPadding) (fun a v => { a with labelPadding := v }) (measureVar P)

def labelRotate : Handler (AxisDef φ) Fail := onPart (·.labelRotate) (fun a v => { a with labelRotate := v }) (floatVar E)

def labelFontSize : Handler (AxisDef φ) Fail :=
  onPart (·.labelFontSize) (fun a v => { a with labelFontSize := v }) (sizeVar E)

def labelColor : Handler (AxisDef φ) Fail := onPart (·.labelColor) (fun a v => { a with labelColor := v }) (colorVar E)

def tickPlacement : Handler (AxisDef φ) Fail :=
  field (fun args _ => scaleConfigureLayout P.stod args) fun a v => { a with tickPlacement := some v }

def tickOffset : Handler (AxisDef φ) Fail := onPart (·.tickOffset) (fun a v => { a with tickOffset := v }) (floatVar E)

def tickLength : Handler (AxisDef φ) Fail := onPart (·.tickLength) (fun a v => { a with tickLength := v }) (measureVar P)

def title : Handler (AxisDef φ) Fail := field (fun args _ => readString args) fun a v => { a with title := v }

def titleFont : Handler (AxisDef φ) Fail :=
  field (fun args _ => readFont P.text args) fun a f => { a with titleFonts := f :: a.titleFonts }

def titleFontSize : Handler (AxisDef φ) Fail :=
  onPart (·.titleFontSize) (fun a v => { a with titleFontSize := v }) (sizeVar E)

def titleColor : Handler (AxisDef φ) Fail := onPart (·.titleColor) (fun a v => { a with titleColor := v }) (colorVar E)

def titleOffset : Handler (AxisDef φ) Fail := onPart (·.titleOffset) (fun a v => { a with titleOffset := v }) (floatVar E)

def titlePadding : Handler (AxisDef φ) Fail :=
  onPart (·.titlePadding) (fun a v => { a with titlePadding := v }) (measureVar P)

def titleRotate : Handler (AxisDef φ) Fail := onPart (·.titleRotate) (fun a v => { a with titleRotate := v }) (floatVar E)

def borderWidth : Handler (AxisDef φ) Fail := onPart (·.border) (fun a v => { a with border := v }) (strokeWidth E)

def borderColor : Handler (AxisDef φ) Fail := onPart (·.border) (fun a v => { a with border := v }) (strokeColor E)

def border : Handler (AxisDef φ) Fail := onPart (·.border) (fun a v => { a with border := v }) borderStyle

end AxisOpt

/-! ## The `axis` command -/

/-- axis.cc:604-612: the definition before the options. -/
def axisNew (s : PlotState φ) : AxisDef φ where
  labelFonts := s.layer.fonts
  labelFontSize := s.fontSize
  titleFonts := s.layer.fonts
  titleFontSize := s.fontSize
  border := { StrokeState.default with width := s.pt 1 }

/-- axis.cc:634-673 (and 797-857 for the four sides): the defaults of an alignment. -/
def axisPreset (a : AxisDef φ) : AxisDef φ :=
  match a.align with
  | .x => { a with labelAttach := .top, titleOffset := -1, tickOffset := 0, labelOffset := -1 }
  | .top => { a with labelAttach := .bottom, titleOffset := 1, tickOffset := -1, labelOffset := 1 }
  | .bottom => { a with labelAttach := .top, titleOffset := -1, tickOffset := 1, labelOffset := -1 }
  | .y => { a with labelAttach := .right, titleOffset := 1, titleRotate := -90, tickOffset := -1, labelOffset := 1 }
  | .left => { a with labelAttach := .right, titleOffset := -1, titleRotate := -90, tickOffset := 1, labelOffset := -1 }
  | .right => { a with labelAttach := .left, titleOffset := 1, titleRotate := -90, tickOffset := -1, labelOffset := 1 }

/-- axis.cc:676-731, the options of `axis`. -/
def axisOpts (P : PlotEnv φ) (E : ReadEnv) : List (String × Handler (AxisDef φ) Fail) := [
  ("scale", AxisOpt.scale P),
  ("limit", AxisOpt.limit E),
  ("limit-min", AxisOpt.limitMin E),
  ("limit-max", AxisOpt.limitMax E),
  ("label-font", AxisOpt.labelFont P),
  ("label-placement", AxisOpt.labelPlacement P),
  ("label-format", AxisOpt.labelFormat P),
  ("label-attach", AxisOpt.labelAttach),
  ("label-offset", AxisOpt.labelOffset E),
  ("label-padding", AxisOpt.labelPadding P),
  ("label-rotate", AxisOpt.labelRotate E),
  ("label-font-size", AxisOpt.labelFontSize E),
  ("label-color", AxisOpt.labelColor E),
  ("tick-placement", AxisOpt.tickPlacement P),
  ("tick-offset", AxisOpt.tickOffset E),
  ("tick-length", AxisOpt.tickLength P),
  ("title", AxisOpt.title),
  ("title-font", AxisOpt.titleFont P),
  ("title-font-size", AxisOpt.titleFontSize E),
  ("title-color", AxisOpt.titleColor E),
  ("title-offset", AxisOpt.titleOffset E),
  ("title-padding", AxisOpt.titlePadding P),
  ("title-rotate", AxisOpt.titleRotate E),
  ("border-width", AxisOpt.borderWidth E),
  ("border-color", AxisOpt.borderColor E),
  ("border-style", AxisOpt.border),
  ("font", callAll [AxisOpt.labelFont P, AxisOpt.titleFont P]),
  ("font-size", callAll [AxisOpt.labelFontSize E, AxisOpt.titleFontSize E])]

/-- A walk that skips what it does not know, with the failure of the whole (sexpr_util.cc:32-42 with `strict = false`). -/
def walkSkip {σ : Type} (fns : HandlerMap σ Fail) (cmds : List Expr) (s : σ) : σ × Option Fail :=
  match walkLax fns cmds s with
  | (s', .ok ()) => (s', none)
  | (s', .error (.handler f)) => (s', some f)
  | (s', .error .notList) => (s', some (.error .notList))
  | (s', .error .notLiteral) => (s', some (.error .notLiteral))
  | (s', .error (.invalidCommand n)) => (s', some (.error (.invalidCommand n)))

/-- axis.cc:600-733, the configuration of `axis`; line 602 throws if there are no options. -/
def axisConfigure (P : PlotEnv φ) (s : PlotState φ) (args : List Expr) : Except Fail (AxisDef φ) :=
  if args = [] then .error .thrown
  else match walkSkip (optTable [("align", field (fun args _ => readAlign args) fun (a : AxisDef φ) v => { a with align := v })])
    args (axisNew s) with
  | (_, some f) => .error f
  | (a, none) => match walkSkip (optTable (axisOpts P (s.env P))) args (axisPreset a) with
    | (_, some f) => .error f
    | (a, none) => .ok a

/-- axis.cc:600-735 `plot_axis(ctx, plot, expr)`. -/
def axisCmd (P : PlotEnv φ) : Handler (PlotState φ) Fail := withConfig (axisConfigure P) (plotAxis P)

/-! ## The `axes` command -/

/-- The local variables of axis.cc:790-858. -/
structure AxesConf (φ : Type) where
  top : AxisDef φ
  right : AxisDef φ
  bottom : AxisDef φ
  left : AxisDef φ
  /-- top, right, bottom, left -/
  margins : ℝ × ℝ × ℝ × ℝ

def onTop (h : Handler (AxisDef φ) Fail) : Handler (AxesConf φ) Fail := onPart (·.top) (fun c v => { c with top := v }) h
def onRight (h : Handler (AxisDef φ) Fail) : Handler (AxesConf φ) Fail := onPart (·.right) (fun c v => { c with right := v }) h
def onBottom (h : Handler (AxisDef φ) Fail) : Handler (AxesConf φ) Fail := onPart (·.bottom) (fun c v => { c with bottom := v }) h
def onLeft (h : Handler (AxisDef φ) Fail) : Handler (AxesConf φ) Fail := onPart (·.left) (fun c v => { c with left := v }) h

/-- The options for all four axes: `expr_calln_fn` over `axes[0..3]`. -/
def onAll (h : Handler (AxisDef φ) Fail) : Handler (AxesConf φ) Fail := callAll [onTop h, onRight h, onBottom h, onLeft h]
/-- `expr_calln_fn` over `axes[0]` and `axes[2]`. -/
def onXs (h : Handler (AxisDef φ) Fail) : Handler (AxesConf φ) Fail := callAll [onTop h, onBottom h]
/-- `expr_calln_fn` over `axes[1]` and `axes[3]`. -/
def onYs (h : Handler (AxisDef φ) Fail) : Handler (AxesConf φ) Fail := callAll [onRight h, onLeft h]

/-- The four margins as handlers, in the order of `margins[0..3]`. -/
def marginTop (E : ReadEnv) : Handler (AxesConf φ) Fail :=
  onPart (·.margins.1) (fun c v => { c with margins := (v, c.margins.2) }) (sizeVar E)
def marginRight (E : ReadEnv) : Handler (AxesConf φ) Fail :=
  onPart (·.margins.2.1) (fun c v => { c with margins := (c.margins.1, v, c.margins.2.2) }) (sizeVar E)
def marginBottom (E : ReadEnv) : Handler (AxesConf φ) Fail :=
  onPart (·.margins.2.2.1) (fun c v => { c with margins := (c.margins.1, c.margins.2.1, v, c.margins.2.2.2) }) (sizeVar E)
def marginLeft (E : ReadEnv) : Handler (AxesConf φ) Fail :=
  onPart (·.margins.2.2.2) (fun c v => { c with margins := (c.margins.1, c.margins.2.1, c.margins.2.2.1, v) }) (sizeVar E)

/-- axis.cc:746-781: the words of `position`, in order. -/
def enableAxes : List Expr → AxesConf φ → AxesConf φ × Option Fail
  | [], c => (c, none)
  | e :: es, c =>
    if isWord [e] "top".toList then enableAxes es { c with top := { c.top with enable := true } }
    else if isWord [e] "bottom".toList then enableAxes es { c with bottom := { c.bottom with enable := true } }
    else if isWord [e] "left".toList then enableAxes es { c with left := { c.left with enable := true } }
    else if isWord [e] "right".toList then enableAxes es { c with right := { c.right with enable := true } }
    else (c, some (.error .invalidValue))

/-- axis.cc:737-785 `axis_configure_position`. -/
def axesPosition : Handler (AxesConf φ) Fail := fun args c =>
  enableAxes args { c with
    top := { c.top with enable := false }
    right := { c.right with enable := false }
    bottom := { c.bottom with enable := false }
    left := { c.left with enable := false } }

/-- axis.cc:859-1243, the options of `axes`.  `label-placement-x` and `-y` are listed twice (875-888 and 1046-1059); the
second entries, which set the ticks, are dropped by the map. -/
def axesOpts (P : PlotEnv φ) (E : ReadEnv) : List (String × Handler (AxesConf φ) Fail) := [
  ("position", axesPosition),
  ("scale-x", onXs (AxisOpt.scale P)),
  ("scale-y", onYs (AxisOpt.scale P)),
  ("scale-top", onTop (AxisOpt.scale P)),
  ("scale-right", onRight (AxisOpt.scale P)),
  ("scale-bottom", onBottom (AxisOpt.scale P)),
  ("scale-left", onLeft (AxisOpt.scale P)),
  ("limit-x", onXs (AxisOpt.limit E)),
  ("limit-y", onYs (AxisOpt.limit E)),
  ("limit-top", onTop (AxisOpt.limit E)),
  ("limit-right", onRight (AxisOpt.limit E)),
  ("limit-bottom", onBottom (AxisOpt.limit E)),
  ("limit-left", onLeft (AxisOpt.limit E)),
  ("label-placement-x", onXs (AxisOpt.labelPlacement P)),
  ("label-placement-y", onYs (AxisOpt.labelPlacement P)),
  ("label-placement-top", onTop (AxisOpt.labelPlacement P)),
  ("label-placement-right", onRight (AxisOpt.labelPlacement P)),
  ("label-placement-bottom", onBottom (AxisOpt.labelPlacement P)),
  ("label-placement-left", onLeft (AxisOpt.labelPlacement P)),
  ("label-format", onAll (AxisOpt.labelFormat P)),
  ("label-format-x", onXs (AxisOpt.labelFormat P)),
  ("label-format-y", onYs (AxisOpt.labelFormat P)),
  ("label-attach-top", onTop AxisOpt.labelAttach),
  ("label-attach-bottom", onBottom AxisOpt.labelAttach),
  ("label-attach-right", onRight AxisOpt.labelAttach),
  ("label-attach-left", onLeft AxisOpt.labelAttach),
  ("label-offset-top", onTop (AxisOpt.labelOffset E)),
  ("label-offset-right", onRight (AxisOpt.labelOffset E)),
  ("label-offset-bottom", onBottom (AxisOpt.labelOffset E)),
  ("label-offset-left", onLeft (AxisOpt.labelOffset E)),
  ("label-padding-top", onTop (AxisOpt.labelPadding P)),
  ("label-padding-right", onRight (AxisOpt.labelPadding P)),
  ("label-padding-bottom", onBottom (AxisOpt.labelPadding P)),
  ("label-padding-left", onLeft (AxisOpt.labelPadding P)),
  ("label-rotate-top", onTop (AxisOpt.labelRotate E)),
  ("label-rotate-right", onRight (AxisOpt.labelRotate E)),
  ("label-rotate-bottom", onBottom (AxisOpt.labelRotate E)),
  ("label-rotate-left", onLeft (AxisOpt.labelRotate E)),
  ("label-format-top", onTop (AxisOpt.labelFormat P)),
  ("label-format-right", onRight (AxisOpt.labelFormat P)),
  ("label-format-bottom", onBottom (AxisOpt.labelFormat P)),
  ("label-format-left", onLeft (AxisOpt.labelFormat P)),
  ("label-font-size", onAll (AxisOpt.labelFontSize E)),
  ("label-color", onAll (AxisOpt.labelColor E)),
  ("label-color-x", onXs (AxisOpt.labelColor E)),
  ("label-color-y", onYs (AxisOpt.labelColor E)),
  ("label-color-top", onTop (AxisOpt.labelColor E)),
  ("label-color-right", onRight (AxisOpt.labelColor E)),
  ("label-color-bottom", onBottom (AxisOpt.labelColor E)),
  ("label-color-left", onLeft (AxisOpt.labelColor E)),
  ("label-font", onAll (AxisOpt.labelFont P)),
  ("label-font-top", onTop (AxisOpt.labelFont P)),
  ("label-font-right", onRight (AxisOpt.labelFont P)),
  ("label-font-bottom", onBottom (AxisOpt.labelFont P)),
  ("label-font-left", onLeft (AxisOpt.labelFont P)),
  ("label-font-size-x", onXs (AxisOpt.labelFontSize E)),
  ("label-font-size-y", onYs (AxisOpt.labelFontSize E)),
  ("label-font-size-top", onTop (AxisOpt.labelFontSize E)),
  ("label-font-size-right", onRight (AxisOpt.labelFontSize E)),
  ("label-font-size-bottom", onBottom (AxisOpt.labelFontSize E)),
  ("label-font-size-left", onLeft (AxisOpt.labelFontSize E)),
  ("label-placement-x", onXs (AxisOpt.tickPlacement P)),
  ("label-placement-y", onYs (AxisOpt.tickPlacement P)),
  ("tick-placement-top", onTop (AxisOpt.tickPlacement P)),
  ("tick-placement-right", onRight (AxisOpt.tickPlacement P)),
  ("tick-placement-bottom", onBottom (AxisOpt.tickPlacement P)),
  ("tick-placement-left", onLeft (AxisOpt.tickPlacement P)),
  ("tick-offset-top", onTop (AxisOpt.tickOffset E)),
  ("tick-offset-right", onRight (AxisOpt.tickOffset E)),
  ("tick-offset-bottom", onBottom (AxisOpt.tickOffset E)),
  ("tick-offset-left", onLeft (AxisOpt.tickOffset E)),
  ("tick-length-top", onTop (AxisOpt.tickLength P)),
  ("tick-length-right", onRight (AxisOpt.tickLength P)),
  ("tick-length-bottom", onBottom (AxisOpt.tickLength P)),
  ("tick-length-left", onLeft (AxisOpt.tickLength P)),
  ("title-x", onXs AxisOpt.title),
  ("title-y", onYs AxisOpt.title),
  ("title-top", onTop AxisOpt.title),
  ("title-right", onRight AxisOpt.title),
  ("title-bottom", onBottom AxisOpt.title),
  ("title-left", onLeft AxisOpt.title),
  ("title-font", onAll (AxisOpt.titleFont P)),
  ("title-font-top", onTop (AxisOpt.titleFont P)),
  ("title-font-right", onRight (AxisOpt.titleFont P)),
  ("title-font-bottom", onBottom (AxisOpt.titleFont P)),
  ("title-font-left", onLeft (AxisOpt.titleFont P)),
  ("title-font-size", onAll (AxisOpt.titleFontSize E)),
  ("title-font-size-top", onTop (AxisOpt.titleFontSize E)),
  ("title-font-size-right", onRight (AxisOpt.titleFontSize E)),
  ("title-font-size-bottom", onBottom (AxisOpt.titleFontSize E)),
  ("title-font-size-left", onLeft (AxisOpt.titleFontSize E)),
  ("title-color", onAll (AxisOpt.titleColor E)),
  ("title-color-top", onTop (AxisOpt.titleColor E)),
  ("title-color-right", onRight (AxisOpt.titleColor E)),
  ("title-color-bottom", onBottom (AxisOpt.titleColor E)),
  ("title-color-left", onLeft (AxisOpt.titleColor E)),
  ("title-offset-top", onTop (AxisOpt.titleOffset E)),
  ("title-offset-right", onRight (AxisOpt.titleOffset E)),
  ("title-offset-bottom", onBottom (AxisOpt.titleOffset E)),
  ("title-offset-left", onLeft (AxisOpt.titleOffset E)),
  ("title-padding-top", onTop (AxisOpt.titlePadding P)),
  ("title-padding-right", onRight (AxisOpt.titlePadding P)),
  ("title-padding-bottom", onBottom (AxisOpt.titlePadding P)),
  ("title-padding-left", onLeft (AxisOpt.titlePadding P)),
  ("title-rotate-top", onTop (AxisOpt.titleRotate E)),
  ("title-rotate-right", onRight (AxisOpt.titleRotate E)),
  ("title-rotate-bottom", onBottom (AxisOpt.titleRotate E)),
  ("title-rotate-left", onLeft (AxisOpt.titleRotate E)),
  ("margin", callAll [marginTop E, marginRight E, marginBottom E, marginLeft E]),
  ("margin-top", marginTop E),
  ("margin-right", marginRight E),
  ("margin-bottom", marginBottom E),
  ("margin-left", marginLeft E),
  ("border-width", onAll (AxisOpt.borderWidth E)),
  ("border-width-top", onTop (AxisOpt.borderWidth E)),
  ("border-width-right", onRight (AxisOpt.borderWidth E)),
  ("border-width-bottom", onBottom (AxisOpt.borderWidth E)),
  ("border-width-left", onLeft (AxisOpt.borderWidth E)),
  ("border-color", onAll (AxisOpt.borderColor E)),
  ("border-color-top", onTop (AxisOpt.borderColor E)),
  ("border-color-right", onRight (AxisOpt.borderColor E)),
  ("border-color-bottom", onBottom (AxisOpt.borderColor E)),
  ("border-color-left", onLeft (AxisOpt.borderColor E)),
  ("border-style", onAll AxisOpt.border),
  ("border-style-top", onTop AxisOpt.border),
  ("border-style-right", onRight AxisOpt.border),
  ("border-style-bottom", onBottom AxisOpt.border),
  ("border-style-left", onLeft AxisOpt.border),
  ("font", callAll [
    onTop (AxisOpt.labelFont P), onRight (AxisOpt.labelFont P), onBottom (AxisOpt.labelFont P), onLeft (AxisOpt.labelFont P),
    onTop (AxisOpt.titleFont P), onRight (AxisOpt.titleFont P), onBottom (AxisOpt.titleFont P),
    onLeft (AxisOpt.titleFont P)]),
  ("font-size", callAll [
    onTop (AxisOpt.titleFontSize E), onRight (AxisOpt.titleFontSize E), onBottom (AxisOpt.titleFontSize E),
    onLeft (AxisOpt.titleFontSize E), onTop (AxisOpt.labelFontSize E), onRight (AxisOpt.labelFontSize E),
    onBottom (AxisOpt.labelFontSize E), onLeft (AxisOpt.labelFontSize E)])]

/-- axis.cc:790-857: the four axes before the options. -/
def axesDefault (s : PlotState φ) : AxesConf φ where
  top := axisPreset { axisNew s with align := .top, scale := s.scales.x }
  right := axisPreset { axisNew s with align := .right, scale := s.scales.y }
  bottom := axisPreset { axisNew s with align := .bottom, scale := s.scales.x }
  left := axisPreset { axisNew s with align := .left, scale := s.scales.y }
  margins := (unitFromEm 1 s.fontSize, unitFromEm 1 s.fontSize, unitFromEm 1 s.fontSize, unitFromEm 1 s.fontSize)

/-- axis.cc:787-1248: the configuration. -/
def axesConfigure (P : PlotEnv φ) (s : PlotState φ) (args : List Expr) : Except Fail (AxesConf φ) :=
  match walkRead (optTable (axesOpts P (s.env P))) args (axesDefault s) with
  | (_, some f) => .error f
  | (c, none) => .ok c

/-- axis.cc:1250-1262: the margin of one axis; the return code of `axis_layout` is ignored, an exception is not. -/
def axisPadding (P : PlotEnv φ) (dpi : ℝ) (a : AxisDef φ) : Except Fail ℝ :=
  if a.enable then
    match axisLayout P dpi a with
    | (m, none) => .ok m
    | (m, some (.error _)) => .ok m
    | (_, some f) => .error f
  else .ok 0

/-- axis.cc:1250-1270: the box inside the axes. -/
def axesBox (P : PlotEnv φ) (c : AxesConf φ) (s : PlotState φ) : Except Fail Rect := do
  let t ← axisPadding P s.layer.size.dpi c.top
  let r ← axisPadding P s.layer.size.dpi c.right
  let b ← axisPadding P s.layer.size.dpi c.bottom
  let l ← axisPadding P s.layer.size.dpi c.left
  return layoutMarginBox s.clip (c.margins.1 + t) (c.margins.2.1 + r) (c.margins.2.2.1 + b) (c.margins.2.2.2 + l)

/-- axis.cc:1275-1283: one of the four axes. -/
def plotAxisIf (P : PlotEnv φ) (a : AxisDef φ) (s : PlotState φ) : PlotState φ × Option Fail :=
  if a.enable then plotAxis P a s else (s, none)

/-- axis.cc:1250-1287: layout and drawing. -/
def axesRender (P : PlotEnv φ) (c : AxesConf φ) (s : PlotState φ) : PlotState φ × Option Fail :=
  match axesBox P c s with
  | .error f => (s, some f)
  | .ok box =>
    tryChain [plotAxisIf P c.top, plotAxisIf P c.right, plotAxisIf P c.bottom, plotAxisIf P c.left]
      { s with layout := s.layout ++ [box] }

/-- axis.cc:787-1288 `plot_axes`. -/
def axesCmd (P : PlotEnv φ) : Handler (PlotState φ) Fail := withConfig (axesConfigure P) (axesRender P)

end
end Clip
