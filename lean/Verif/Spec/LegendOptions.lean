import Verif.Spec.AxisOptions
/-!
# What the options of `legend` and of its items mean (specification)
-/
namespace Clip.Options
open Settings Drawing Pictures
noncomputable section

variable {φ : Type} (P : PlotEnv φ) (E : ReadEnv)

/-- The sides a label or marker can be on. -/
def sideWords : List (String × HAlign) := [("left", .left), ("right", .right)]

/-- The settings of an item. -/
structure ItemMeans (cmds : List Expr) (a b : LegendItem φ) : Prop where
  label : LastOf IsText ["label"] cmds a.label b.label
  labelAlign : LastOf (IsOneOf sideWords) ["label-align"] cmds a.labelAlign b.labelAlign
  labelMargin : LastOf (IsSize E) ["label-margin"] cmds a.labelMargin b.labelMargin
  labelColor : LastOf (IsColor E) ["label-color"] cmds a.labelColor b.labelColor
  labelFonts : Acts [("font", AddFont P), ("label-font", AddFont P)] cmds a.labelFonts b.labelFonts
  labelFontSize : LastOf (IsSize E) ["label-font-size"] cmds a.labelFontSize b.labelFontSize
  marker : LastOf (fun args m => readMarker E args = .ok m) ["marker-shape"] cmds a.marker b.marker
  markerAlign : LastOf (IsOneOf sideWords) ["marker-align"] cmds a.markerAlign b.markerAlign
  markerMargin : LastOf (IsSize E) ["marker-margin"] cmds a.markerMargin b.markerMargin
  markerColor : LastOf (IsColor E) ["marker-color", "color"] cmds a.markerColor b.markerColor
  markerSize : LastOf (IsSize E) ["marker-size"] cmds a.markerSize b.markerSize

/-- What the options of an item take. -/
def itemTakes : Takes := [
  ("font", Does (AddFont P)), ("label", Has IsText), ("label-align", Has (IsOneOf sideWords)),
  ("label-margin", Has (IsSize E)), ("label-color", Has (IsColor E)), ("label-font", Does (AddFont P)),
  ("label-font-size", Has (IsSize E)), ("marker-shape", Has fun args m => readMarker E args = .ok m),
  ("marker-align", Has (IsOneOf sideWords)), ("marker-margin", Has (IsSize E)), ("marker-color", Has (IsColor E)),
  ("marker-size", Has (IsSize E)), ("color", Has (IsColor E))]

/-- The item that a block of options describes, starting from `start`. -/
def IsItem (start : LegendItem φ) (args : List Expr) (i : LegendItem φ) : Prop :=
  Acceptable (itemTakes P E) args ∧ ItemMeans P E args start i

/-- `w` is the last of these words in the arguments. -/
def LastWord (words : List String) (args : List Expr) (w : String) : Prop :=
  w ∈ words ∧ ∃ pre e post, args = pre ++ e :: post ∧ IsWord e w ∧ ∀ x ∈ post, ∀ v ∈ words, ¬ IsWord x v

/-- All arguments are places. -/
def ArePlaces (args : List Expr) : Prop :=
  ∀ e ∈ args, ∃ w ∈ ["top", "bottom", "left", "right", "center"], IsWord e w

/-- `position`: the last of `left` and `right` counts; without any of the two, `center` does. -/
def PlaceX (args : List Expr) (a b : HAlign) : Prop :=
  ArePlaces args ∧ ((LastWord ["left", "right"] args "left" ∧ b = .left) ∨ (LastWord ["left", "right"] args "right" ∧ b = .right) ∨
    ((∀ e ∈ args, ¬ IsWord e "left" ∧ ¬ IsWord e "right") ∧
      (((∃ e ∈ args, IsWord e "center") ∧ b = .center) ∨ ((∀ e ∈ args, ¬ IsWord e "center") ∧ b = a))))

/-- `position`: the last of `top` and `bottom` counts; without any of the two, `center` does. -/
def PlaceY (args : List Expr) (a b : VAlign) : Prop :=
  ArePlaces args ∧ ((LastWord ["top", "bottom"] args "top" ∧ b = .top) ∨ (LastWord ["top", "bottom"] args "bottom" ∧ b = .bottom) ∨
    ((∀ e ∈ args, ¬ IsWord e "top" ∧ ¬ IsWord e "bottom") ∧
      (((∃ e ∈ args, IsWord e "center") ∧ b = .center) ∨ ((∀ e ∈ args, ¬ IsWord e "center") ∧ b = a))))

/-- `on` or `off`. -/
def IsSwitch (args : List Expr) (b : Bool) : Prop := ∃ k rest, args = k :: rest ∧ IsWord k (if b then "on" else "off")

/-- The options that act on a border. -/
def borderOf (side : String) : List (String × Effect StrokeState) := [("border", BorderStyle), ("border-color", strokeColor E),
  ("border-" ++ side ++ "-color", strokeColor E), ("border-width", strokeWidth E), ("border-" ++ side ++ "-width", strokeWidth E)]

/-- The settings of a legend; `item` is what an item has before its options. -/
structure LegendMeans (item : LegendItem φ) (cmds : List Expr) (a b : LegendConf φ) : Prop where
  horiz : Acts [("position", PlaceX)] cmds a.horiz b.horiz
  vert : Acts [("position", PlaceY)] cmds a.vert b.vert
  rowPadding : LastOf (IsSize E) ["item-row-padding"] cmds a.rowPadding b.rowPadding
  columnPadding : LastOf (IsSize E) ["item-column-padding"] cmds a.columnPadding b.columnPadding
  flow : LastOf IsSwitch ["item-flow"] cmds a.flow b.flow
  items : Acts [("item", fun args x y => ∃ i, IsItem P E item args i ∧ y = x ++ [i])] cmds a.items b.items
  paddingTop : LastOf (IsSize E) ["padding", "padding-top"] cmds a.padding.1 b.padding.1
  paddingRight : LastOf (IsSize E) ["padding", "padding-right"] cmds a.padding.2.1 b.padding.2.1
  paddingBottom : LastOf (IsSize E) ["padding", "padding-bottom"] cmds a.padding.2.2.1 b.padding.2.2.1
  paddingLeft : LastOf (IsSize E) ["padding", "padding-left"] cmds a.padding.2.2.2 b.padding.2.2.2
  marginTop : LastOf (IsSize E) ["margin", "margin-top"] cmds a.margins.1 b.margins.1
  marginRight : LastOf (IsSize E) ["margin", "margin-right"] cmds a.margins.2.1 b.margins.2.1
  marginBottom : LastOf (IsSize E) ["margin", "margin-bottom"] cmds a.margins.2.2.1 b.margins.2.2.1
  marginLeft : LastOf (IsSize E) ["margin", "margin-left"] cmds a.margins.2.2.2 b.margins.2.2.2
  borderTop : Acts (borderOf E "top") cmds a.borders.1 b.borders.1
  borderRight : Acts (borderOf E "right") cmds a.borders.2.1 b.borders.2.1
  borderBottom : Acts (borderOf E "bottom") cmds a.borders.2.2.1 b.borders.2.2.1
  borderLeft : Acts (borderOf E "left") cmds a.borders.2.2.2 b.borders.2.2.2
  background : LastOf (fun args v => ∃ k, IsColor E args k ∧ v = some k) ["background"] cmds a.background b.background

/-- What the options of a legend take. -/
def legendTakes : Takes := [
  ("position", ArePlaces), ("item-row-padding", Has (IsSize E)), ("item-column-padding", Has (IsSize E)),
  ("item-flow", Has IsSwitch), ("item", Acceptable (itemTakes P E)),
  ("padding", Has (IsSize E)), ("padding-top", Has (IsSize E)), ("padding-right", Has (IsSize E)),
  ("padding-bottom", Has (IsSize E)), ("padding-left", Has (IsSize E)),
  ("margin", Has (IsSize E)), ("margin-top", Has (IsSize E)), ("margin-right", Has (IsSize E)),
  ("margin-bottom", Has (IsSize E)), ("margin-left", Has (IsSize E)),
  ("border", anything), ("border-color", Has (IsColor E)), ("border-top-color", Has (IsColor E)),
  ("border-right-color", Has (IsColor E)), ("border-bottom-color", Has (IsColor E)), ("border-left-color", Has (IsColor E)),
  ("border-width", Has (IsSize E)), ("border-top-width", Has (IsSize E)), ("border-right-width", Has (IsSize E)),
  ("border-bottom-width", Has (IsSize E)), ("border-left-width", Has (IsSize E)), ("background", Has (IsColor E))]

end
end Clip.Options
