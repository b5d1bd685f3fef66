import Verif.Spec.Options
/-!
# What the options of `axis` and `axes` mean (specification)

`axes` has four axes.  Most of its options are options of one axis with an ending that says for which of the four they are:
none for all, `-x` for top and bottom, `-y` for left and right, or the name of the side.
-/
namespace Clip.Options
open Settings Drawing Pictures
noncomputable section

/-- The four sides of a plot. -/
inductive Side where | top | right | bottom | left
  deriving DecidableEq

def Side.word : Side → String
  | .top => "top" | .right => "right" | .bottom => "bottom" | .left => "left"

variable {φ : Type} (P : PlotEnv φ) (E : ReadEnv)

/-- A number format. -/
def IsFormat (args : List Expr) (v : Option FormatSpec) : Prop :=
  ∃ f, formatConfigure P.stod P.readFile args = .ok f ∧ v = some f

/-- `none` sets the width to zero; any other argument does nothing. -/
def BorderStyle (args : List Expr) (a b : StrokeState) : Prop :=
  ((∃ e rest, args = e :: rest ∧ IsWord e "none") ∧ b = { a with width := 0 }) ∨
  ((¬ ∃ e rest, args = e :: rest ∧ IsWord e "none") ∧ b = a)

/-- The values of `align`. -/
def alignWords : List (String × AxisAlign) :=
  [("x", .x), ("y", .y), ("top", .top), ("right", .right), ("bottom", .bottom), ("left", .left)]

/-- The values of `label-attach`. -/
def attachWords : List (String × AxisAttach) := [("top", .top), ("right", .right), ("bottom", .bottom), ("left", .left)]

/-- The settings of one axis. -/
structure AxisMeans (cmds : List Expr) (a b : AxisDef φ) : Prop where
  scale : Acts [("scale", ScaleWords P), ("limit", scaleLimits E), ("limit-min", scaleMinimum E),
    ("limit-max", scaleMaximum E)] cmds a.scale b.scale
  title : LastOf IsText ["title"] cmds a.title b.title
  titleColor : LastOf (IsColor E) ["title-color"] cmds a.titleColor b.titleColor
  titleOffset : LastOf (IsNumber E) ["title-offset"] cmds a.titleOffset b.titleOffset
  titlePadding : LastOf (IsMeasure P) ["title-padding"] cmds a.titlePadding b.titlePadding
  titleFonts : Acts [("title-font", AddFont P), ("font", AddFont P)] cmds a.titleFonts b.titleFonts
  titleFontSize : LastOf (IsSize E) ["title-font-size", "font-size"] cmds a.titleFontSize b.titleFontSize
  titleRotate : LastOf (IsNumber E) ["title-rotate"] cmds a.titleRotate b.titleRotate
  tickOffset : LastOf (IsNumber E) ["tick-offset"] cmds a.tickOffset b.tickOffset
  tickLength : LastOf (IsMeasure P) ["tick-length"] cmds a.tickLength b.tickLength
  tickPlacement : LastOf (IsPlacement P) ["tick-placement"] cmds a.tickPlacement b.tickPlacement
  labelPlacement : LastOf (IsPlacement P) ["label-placement"] cmds a.labelPlacement b.labelPlacement
  labelFormat : LastOf (IsFormat P) ["label-format"] cmds a.labelFormat b.labelFormat
  labelAttach : LastOf (IsOneOf attachWords) ["label-attach"] cmds a.labelAttach b.labelAttach
  labelOffset : LastOf (IsNumber E) ["label-offset"] cmds a.labelOffset b.labelOffset
  labelPadding : LastOf (IsMeasure P) ["label-padding"] cmds a.labelPadding b.labelPadding
  labelRotate : LastOf (IsNumber E) ["label-rotate"] cmds a.labelRotate b.labelRotate
  labelFonts : Acts [("label-font", AddFont P), ("font", AddFont P)] cmds a.labelFonts b.labelFonts
  labelFontSize : LastOf (IsSize E) ["label-font-size", "font-size"] cmds a.labelFontSize b.labelFontSize
  labelColor : LastOf (IsColor E) ["label-color"] cmds a.labelColor b.labelColor
  border : Acts [("border-width", strokeWidth E), ("border-color", strokeColor E), ("border-style", BorderStyle)] cmds
    a.border b.border
  align : b.align = a.align

/-- What the options of one axis take. -/
def axisTakes : Takes := [
  ("scale", Does (ScaleWords P)), ("limit", Does (scaleLimits E)), ("limit-min", Has (IsNumber E)),
  ("limit-max", Has (IsNumber E)), ("label-font", Does (AddFont P)), ("label-placement", Has (IsPlacement P)),
  ("label-format", Has (IsFormat P)), ("label-attach", Has (IsOneOf attachWords)), ("label-offset", Has (IsNumber E)),
  ("label-padding", Has (IsMeasure P)), ("label-rotate", Has (IsNumber E)), ("label-font-size", Has (IsSize E)),
  ("label-color", Has (IsColor E)), ("tick-placement", Has (IsPlacement P)), ("tick-offset", Has (IsNumber E)),
  ("tick-length", Has (IsMeasure P)), ("title", Has IsText), ("title-font", Does (AddFont P)),
  ("title-font-size", Has (IsSize E)), ("title-color", Has (IsColor E)), ("title-offset", Has (IsNumber E)),
  ("title-padding", Has (IsMeasure P)), ("title-rotate", Has (IsNumber E)), ("border-width", Has (IsSize E)),
  ("border-color", Has (IsColor E)), ("border-style", anything), ("font", Does (AddFont P)),
  ("font-size", Has (IsSize E))]

/-! ## The options of `axes` -/

/-- No ending: all axes. -/
def forAll : List (String × List Side) := [("", [.top, .right, .bottom, .left])]
/-- The endings for the two horizontal and the two vertical axes. -/
def forPairs : List (String × List Side) := [("-x", [.top, .bottom]), ("-y", [.right, .left])]
/-- The endings for one axis. -/
def forEach : List (String × List Side) := [("-top", [.top]), ("-right", [.right]), ("-bottom", [.bottom]), ("-left", [.left])]

/-- The options of one axis that `axes` has, with the endings it has them with. -/
def sided : List (String × List (String × List Side)) := [
  ("scale", forPairs ++ forEach), ("limit", forPairs ++ forEach), ("label-placement", forPairs ++ forEach),
  ("label-format", forAll ++ forPairs ++ forEach), ("label-attach", forEach), ("label-offset", forEach),
  ("label-padding", forEach), ("label-rotate", forEach), ("label-font-size", forAll ++ forPairs ++ forEach),
  ("label-color", forAll ++ forPairs ++ forEach), ("label-font", forAll ++ forEach), ("tick-placement", forEach),
  ("tick-offset", forEach), ("tick-length", forEach), ("title", forPairs ++ forEach), ("title-font", forAll ++ forEach),
  ("title-font-size", forAll ++ forEach), ("title-color", forAll ++ forEach), ("title-offset", forEach),
  ("title-padding", forEach), ("title-rotate", forEach), ("border-width", forAll ++ forEach),
  ("border-color", forAll ++ forEach), ("border-style", forAll ++ forEach), ("font", forAll), ("font-size", forAll)]

/-- An option of `axes` as an option of one axis, and the sides it is for. -/
def splitName (n : Str) : Option (String × List Side) :=
  sided.findSome? fun p => (p.2.find? fun e => decide (n = String.toList p.1 ++ String.toList e.1)).map fun e => (p.1, e.2)

/-- The options of `axes` that concern a side, as options of one axis. -/
def optionsFor (σ : Side) (cmds : List Expr) : List Expr :=
  cmds.filterMap fun c => match (nameOf c).bind splitName with
    | some (base, sides) => if σ ∈ sides then some (.list (.literal (String.toList base) :: argsOf c)) else none
    | none => none

/-- `position` lists the sides that have an axis. -/
def IsPosition (σ : Side) (args : List Expr) (on : Bool) : Prop :=
  (∀ e ∈ args, ∃ τ : Side, IsWord e τ.word) ∧ (on = true ↔ ∃ e ∈ args, IsWord e σ.word)

/-- The axis of a side. -/
def sideOf (c : AxesConf φ) : Side → AxisDef φ
  | .top => c.top | .right => c.right | .bottom => c.bottom | .left => c.left

/-- The margin of a side. -/
def marginOf (c : AxesConf φ) : Side → ℝ
  | .top => c.margins.1 | .right => c.margins.2.1 | .bottom => c.margins.2.2.1 | .left => c.margins.2.2.2

/-- The settings of the four axes. -/
structure AxesMeans (cmds : List Expr) (a b : AxesConf φ) : Prop where
  axis : ∀ σ, AxisMeans P E (optionsFor σ cmds) (sideOf a σ) (sideOf b σ)
  enable : ∀ σ, LastOf (IsPosition σ) ["position"] cmds (sideOf a σ).enable (sideOf b σ).enable
  margin : ∀ σ : Side, LastOf (IsSize E) ["margin", "margin-" ++ σ.word] cmds (marginOf a σ) (marginOf b σ)

/-- `axes` accepts this option. -/
def axesTakes (c : Expr) : Prop :=
  (∃ n base sides A, nameOf c = some n ∧ splitName n = some (base, sides) ∧ (base, A) ∈ axisTakes P E ∧ A (argsOf c)) ∨
  (nameOf c = some "position".toList ∧ ∀ e ∈ argsOf c, ∃ τ : Side, IsWord e τ.word) ∨
  (∃ n ∈ ["margin", "margin-top", "margin-right", "margin-bottom", "margin-left"],
    nameOf c = some (String.toList n) ∧ ∃ v, IsSize E (argsOf c) v)

end
end Clip.Options
