import Verif.Spec.Sources
import Verif.Spec.DataUnits
/-!
# A plot in other units (specification)

The values along the horizontal scale are converted by `x ↦ a * x + b`: those of all elements, and the limits; lengths by
`x ↦ a * x`.
-/
namespace Clip.Units
open Settings Drawing Options Whole
noncomputable section
variable {φ : Type} (P : PlotEnv φ) (E : ReadEnv) (a b : ℝ)

/-- Numbers, and the converted numbers. -/
def Numbers (f : ℝ → ℝ) (vs vs' : List Str) : Prop :=
  List.Forall₂ (fun t t' => ∃ x, isNumber t = true ∧ P.parse t = some x ∧ isNumber t' = true ∧ P.parse t' = some (f x)) vs vs'

/-- The options for values along the horizontal scale. -/
def horizontal : List String := ["data-x", "data-x-low", "data-x-high", "data-dx", "data-size-x", "limit-x", "limit-x-min",
  "limit-x-max", "scale-x-padding"]

/-- The same option in other units.  There are no files with both coordinates, no sizes for both directions, and the scale is
linear.  If `b` is not zero then bars and areas are vertical: the horizontal ones begin at zero. -/
inductive Option' : Expr → Expr → Prop
  | same {c} : (∀ n ∈ horizontal ++ ["data", "data-format", "data-size"], nameOf c ≠ some (String.toList n)) →
      (nameOf c = some "scale-x".toList → ∀ e ∈ argsOf c, IsWord e "linear" ∨ IsWord e "invert" ∨ IsWord e "inverted") →
      (nameOf c = some "direction".toList → b = 0) → Option' c c
  | source {c c' vs vs'} : nameOf c = some "data-x".toList → nameOf c' = some "data-x".toList →
      Source P (argsOf c) vs → Source P (argsOf c') vs' → Numbers P (a * · + b) vs vs' → Option' c c'
  | given {n c c' vs vs'} : n ∈ ["data-x-low", "data-x-high"] → nameOf c = some (String.toList n) →
      nameOf c' = some (String.toList n) → Given P (argsOf c) vs → Given P (argsOf c') vs' → Numbers P (a * · + b) vs vs' →
      Option' c c'
  | length {n c c' vs vs'} : n ∈ ["data-dx", "data-size-x"] → nameOf c = some (String.toList n) →
      nameOf c' = some (String.toList n) → Given P (argsOf c) vs → Given P (argsOf c') vs' → Numbers P (a * ·) vs vs' →
      Option' c c'
  | limits {c c' x y x' y' lo hi} : nameOf c = some "limit-x".toList → nameOf c' = some "limit-x".toList →
      argsOf c = [x, y] → argsOf c' = [x', y'] → exprToFloat E.stod x = .ok lo → exprToFloat E.stod y = .ok hi →
      exprToFloat E.stod x' = .ok (a * lo + b) → exprToFloat E.stod y' = .ok (a * hi + b) → Option' c c'
  | limit {n c c' v} : n ∈ ["limit-x-min", "limit-x-max"] → nameOf c = some (String.toList n) →
      nameOf c' = some (String.toList n) → IsNumber E (argsOf c) v → IsNumber E (argsOf c') (a * v + b) → Option' c c'
  | padding {c c' v} : nameOf c = some "scale-x-padding".toList → nameOf c' = some "scale-x-padding".toList →
      IsNumber E (argsOf c) v → IsNumber E (argsOf c') (a * v) → Option' c c'

/-- The elements with data. -/
def elements : List String := ["lines", "points", "bars", "areas", "errorbars", "rectangles", "vectors", "labels"]

/-- The commands for the horizontal scale. -/
def scaleCommands : List String := ["limit-x", "limit-x-min", "limit-x-max", "scale-x", "scale-x-padding"]

/-- The same command in other units.  Axes show the numbers themselves, and there are no grids and no polygons. -/
inductive Command : Expr → Expr → Prop
  | same {c} : (∀ n ∈ elements ++ scaleCommands ++ ["axes", "axis", "grid", "polygons"], nameOf c ≠ some (String.toList n)) → Command c c
  | scale {n c c'} : n ∈ scaleCommands → nameOf c = some (String.toList n) → Option' P E a b c c' → Command c c'
  | element {n e cs cs'} : n ∈ elements → nameOf (.list (e :: cs)) = some (String.toList n) →
      List.Forall₂ (Option' P E a b) cs cs' → Command (.list (e :: cs)) (.list (e :: cs'))

/-- The scale has limits, given or from data. -/
def Limited (s : Scale) : Prop :=
  (s.min ≠ none ∨ s.hints.minValue ≠ none) ∧ (s.max ≠ none ∨ s.hints.maxValue ≠ none)

end
end Clip.Units
