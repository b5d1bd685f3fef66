import Verif.Spec.LegendOptions
/-!
# The order of options (specification)

For every element there is a list of groups of options; the options of a group set the same thing, or parts of it.
-/
namespace Clip.Options
open Settings

/-- The option has one of these names. -/
def named (names : List String) (c : Expr) : Bool := names.any fun n => decide (nameOf c = some n.toList)

/-- The same options, in an order in which the options of each group still follow one another as before. -/
def SameUpToOrder (groups : List (List String)) (cs cs' : List Expr) : Prop :=
  cs.Perm cs' ∧ ∀ g ∈ groups, cs.filter (named g) = cs'.filter (named g)

def limitGroups : List (List String) := [["limit-x", "limit-x-min"], ["limit-x", "limit-x-max"],
  ["limit-y", "limit-y-min"], ["limit-y", "limit-y-max"]]

def scaleGroups : List (List String) := limitGroups ++ [["scale-x", "scale-x-padding"], ["scale-y", "scale-y-padding"]]

def fileGroups : List (List String) := [["data"], ["data-format"], ["data-x"], ["data-y"]]

def strokeGroups : List (List String) := [["color", "stroke-color"], ["stroke-width", "stroke-style"]]

def labelGroups : List (List String) := [["labels"], ["label-font-size"], ["label-color"], ["label-padding"]]

def rangeGroups : List (List String) := [["data-x-low"], ["data-y-low"]]

def linesGroups : List (List String) := fileGroups ++ scaleGroups ++ strokeGroups ++ labelGroups ++
  [["marker-size"], ["marker-shape"], ["color", "marker-color"]]

def pointsGroups : List (List String) := fileGroups ++ scaleGroups ++ labelGroups ++
  [["colors"], ["color-map"], ["sizes"], ["size-map"], ["shape"], ["shapes"], ["size"], ["color"], ["label-font", "font"]]

def barsGroups : List (List String) := scaleGroups ++ strokeGroups ++ labelGroups ++ rangeGroups ++
  [["data-x", "data-x-high"], ["data-y", "data-y-high"], ["width"], ["widths"], ["offset"], ["offsets"], ["fill", "color"],
    ["direction"]]

def areasGroups : List (List String) := fileGroups ++ scaleGroups ++ rangeGroups ++
  [["data-x-high"], ["data-y-high"], ["color", "stroke-color", "stroke-high-color"], ["color", "stroke-color", "stroke-low-color"],
    ["stroke-width", "stroke-style", "stroke-high-width", "stroke-high-style"],
    ["stroke-width", "stroke-style", "stroke-low-width", "stroke-low-style"], ["fill", "color"], ["direction"]]

def errorbarsGroups : List (List String) := scaleGroups ++ rangeGroups ++
  [["data-x"], ["data-y"], ["data-x-high"], ["data-y-high"], ["colors"], ["color-map"], ["width"], ["color", "stroke-color"],
    ["stroke-width"]]

def rectanglesGroups : List (List String) := fileGroups ++ scaleGroups ++
  [["colors"], ["color-map"], ["data-size-x", "data-size"], ["data-size-y", "data-size"], ["size", "size-x"], ["size", "size-y"],
    ["color"]]

def vectorsGroups : List (List String) := fileGroups ++ scaleGroups ++
  [["colors"], ["color-map"], ["sizes"], ["size-map"], ["data-dx"], ["data-dy"], ["color"], ["size"]]

def labelsGroups : List (List String) := fileGroups ++ scaleGroups ++ labelGroups ++ [["label-font", "font"]]

def polygonsGroups : List (List String) := limitGroups ++ strokeGroups ++ [["scale-x"], ["scale-y"], ["data"], ["fill", "color"]]

def gridGroups : List (List String) := scaleGroups ++ strokeGroups ++ [["tick-placement-x"], ["tick-placement-y"]]

def backgroundGroups : List (List String) := strokeGroups ++ [["fill", "color"]]

/-- The groups of one axis. -/
def axisGroups : List (List String) := [["scale"], ["limit", "limit-min"], ["limit", "limit-max"], ["title"], ["title-color"],
  ["title-offset"], ["title-padding"], ["title-font", "font"], ["title-font-size", "font-size"], ["title-rotate"], ["tick-offset"],
  ["tick-length"], ["tick-placement"], ["label-placement"], ["label-format"], ["label-attach"], ["label-offset"],
  ["label-padding"], ["label-rotate"], ["label-font", "font"], ["label-font-size", "font-size"], ["label-color"],
  ["border-width", "border-style"], ["border-color"], ["align"]]

/-- The names in `axes` of the options of one axis, for a side. -/
def sideNames (σ : Side) (group : List String) : List String :=
  sided.flatMap fun p => if p.1 ∈ group then (p.2.filter fun e => decide (σ ∈ e.2)).map fun e => p.1 ++ e.1 else []

/-- The groups of `axes`. -/
def axesGroups : List (List String) :=
  [Side.top, .right, .bottom, .left].flatMap (fun σ => ["margin", "margin-" ++ σ.word] :: axisGroups.map (sideNames σ)) ++
    [["position"]]

/-- The groups of `legend`. -/
def legendGroups : List (List String) := [["position"], ["item-row-padding"], ["item-column-padding"], ["item-flow"], ["item"],
  ["background"]] ++ [Side.top, .right, .bottom, .left].flatMap fun σ => [["padding", "padding-" ++ σ.word],
    ["margin", "margin-" ++ σ.word], ["border-color", "border-" ++ σ.word ++ "-color"],
    ["border", "border-width", "border-" ++ σ.word ++ "-width"]]

/-- The groups of an item of a legend. -/
def itemGroups : List (List String) := [["label"], ["label-align"], ["label-margin"], ["label-color"], ["font", "label-font"],
  ["label-font-size"], ["marker-shape"], ["marker-align"], ["marker-margin"], ["marker-color", "color"], ["marker-size"]]

/-- The two options of a legend are the same, up to the order of the options of an item. -/
inductive OptionUpToItems : Expr → Expr → Prop
  | same (c) : OptionUpToItems c c
  | item {c c'} : nameOf c = some "item".toList → nameOf c' = some "item".toList →
      SameUpToOrder itemGroups (argsOf c) (argsOf c') → OptionUpToItems c c'

/-- The groups of a rectangle of a drawing. -/
def rectangleGroups : List (List String) := [["position"], ["size"], ["color", "fill"], ["stroke"]]

/-- The groups of a text of a drawing. -/
def textGroups : List (List String) := [["text"], ["position"], ["font"], ["font-size"], ["color", "fill"], ["stroke"]]

/-- The elements of a plot or drawing with the groups of their options. -/
def elementGroups : List (String × List (List String)) := [("lines", linesGroups), ("points", pointsGroups),
  ("bars", barsGroups), ("areas", areasGroups), ("errorbars", errorbarsGroups), ("rectangles", rectanglesGroups),
  ("vectors", vectorsGroups), ("labels", labelsGroups), ("polygons", polygonsGroups), ("grid", gridGroups),
  ("background", backgroundGroups), ("axis", axisGroups), ("axes", axesGroups), ("legend", legendGroups),
  ("rectangle", rectangleGroups), ("text", textGroups)]

/-- The two commands of a plot or drawing are the same, up to the order of the options of an element or of the items
of a legend. -/
inductive CommandUpToOrder : Expr → Expr → Prop
  | same (c) : CommandUpToOrder c c
  | element {n groups e cs cs'} : (n, groups) ∈ elementGroups → nameOf (.list (e :: cs)) = some (String.toList n) →
      SameUpToOrder groups cs cs' → CommandUpToOrder (.list (e :: cs)) (.list (e :: cs'))
  | items {e cs cs'} : nameOf (.list (e :: cs)) = some "legend".toList → List.Forall₂ OptionUpToItems cs cs' →
      CommandUpToOrder (.list (e :: cs)) (.list (e :: cs'))

end Clip.Options
