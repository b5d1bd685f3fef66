import Verif.Spec.PlotUnits
/-!
# A plot in other units along its vertical scale (specification)
-/
namespace Clip.Units.Vertical
open Settings Drawing Options Whole
noncomputable section
variable {φ : Type} (P : PlotEnv φ) (E : ReadEnv) (a b : ℝ)

/-- The options for values along the vertical scale. -/
def vertical : List String := ["data-y", "data-y-low", "data-y-high", "data-dy", "data-size-y", "limit-y", "limit-y-min",
  "limit-y-max", "scale-y-padding"]

/-- The same option in other units.  There are no files with both coordinates, no sizes for both directions, and the scale is
linear. -/
inductive Option' : Expr → Expr → Prop
  | same {c} : (∀ n ∈ vertical ++ ["data", "data-format", "data-size"], nameOf c ≠ some (String.toList n)) →
      (nameOf c = some "scale-y".toList → ∀ e ∈ argsOf c, IsWord e "linear" ∨ IsWord e "invert" ∨ IsWord e "inverted") →
      Option' c c
  | source {c c' vs vs'} : nameOf c = some "data-y".toList → nameOf c' = some "data-y".toList →
      Source P (argsOf c) vs → Source P (argsOf c') vs' → Numbers P (a * · + b) vs vs' → Option' c c'
  | given {n c c' vs vs'} : n ∈ ["data-y-low", "data-y-high"] → nameOf c = some (String.toList n) →
      nameOf c' = some (String.toList n) → Given P (argsOf c) vs → Given P (argsOf c') vs' → Numbers P (a * · + b) vs vs' →
      Option' c c'
  | length {n c c' vs vs'} : n ∈ ["data-dy", "data-size-y"] → nameOf c = some (String.toList n) →
      nameOf c' = some (String.toList n) → Given P (argsOf c) vs → Given P (argsOf c') vs' → Numbers P (a * ·) vs vs' →
      Option' c c'
  | limits {c c' x y x' y' lo hi} : nameOf c = some "limit-y".toList → nameOf c' = some "limit-y".toList →
      argsOf c = [x, y] → argsOf c' = [x', y'] → exprToFloat E.stod x = .ok lo → exprToFloat E.stod y = .ok hi →
      exprToFloat E.stod x' = .ok (a * lo + b) → exprToFloat E.stod y' = .ok (a * hi + b) → Option' c c'
  | limit {n c c' v} : n ∈ ["limit-y-min", "limit-y-max"] → nameOf c = some (String.toList n) →
      nameOf c' = some (String.toList n) → IsNumber E (argsOf c) v → IsNumber E (argsOf c') (a * v + b) → Option' c c'
  | padding {c c' v} : nameOf c = some "scale-y-padding".toList → nameOf c' = some "scale-y-padding".toList →
      IsNumber E (argsOf c) v → IsNumber E (argsOf c') (a * v) → Option' c c'

/-- The commands for the vertical scale. -/
def scaleCommands : List String := ["limit-y", "limit-y-min", "limit-y-max", "scale-y", "scale-y-padding"]

/-- The same command in other units.  Axes show the numbers themselves, and there are no grids and no polygons.  If there are bars
or areas then `b` is zero: they begin at zero. -/
inductive Command : Expr → Expr → Prop
  | same {c} : (∀ n ∈ elements ++ scaleCommands ++ ["axes", "axis", "grid", "polygons"], nameOf c ≠ some (String.toList n)) → Command c c
  | scale {n c c'} : n ∈ scaleCommands → nameOf c = some (String.toList n) → Option' P E a b c c' → Command c c'
  | element {n e cs cs'} : n ∈ elements → (n = "bars" ∨ n = "areas" → b = 0) → nameOf (.list (e :: cs)) = some (String.toList n) →
      List.Forall₂ (Option' P E a b) cs cs' → Command (.list (e :: cs)) (.list (e :: cs'))

end
end Clip.Units.Vertical
