import Verif.Spec.Drawing
import Verif.Model.ScaleConf
/-!
# Placements of ticks and labels as written in a file (specification)
-/
namespace Clip.Options
open Drawing
noncomputable section

/-- `linear(step)`, `linear-align(step)`, …, `categorical`, `categorical-bounds` and `none`; `subdivide()` makes eight
divisions.  Arguments after the first are not looked at. -/
inductive Placement (stod : Str → Option (ℝ × Nat)) : List Expr → TickSpec → Prop
  | linear {k a v rest} : IsWord k "linear" → exprToFloat stod a = .ok v → Placement stod (.list [k, a] :: rest) (.linear v)
  | align {k a v rest} : IsWord k "linear-align" → exprToFloat stod a = .ok v → Placement stod (.list [k, a] :: rest) (.align v)
  | alignat {k a b v w rest} : IsWord k "linear-alignat" → exprToFloat stod a = .ok v → exprToFloat stod b = .ok w →
      Placement stod (.list [k, a, b] :: rest) (.alignat v w)
  | interval {k a b c v w x rest} : IsWord k "linear-interval" → exprToFloat stod a = .ok v → exprToFloat stod b = .ok w →
      exprToFloat stod c = .ok x → Placement stod (.list [k, a, b, c] :: rest) (.interval v w x)
  | exponential {k a v rest} : IsWord k "exponential" → exprToFloat stod a = .ok v →
      Placement stod (.list [k, a] :: rest) (.exponential v)
  | expSteps {k a b v w rest} : IsWord k "exponential-steps" → exprToFloat stod a = .ok v → exprToFloat stod b = .ok w →
      Placement stod (.list [k, a, b] :: rest) (.expSteps v w)
  | subdivide {k a v rest} : IsWord k "subdivide" → exprToFloat stod a = .ok v →
      Placement stod (.list [k, a] :: rest) (.subdivide v)
  | subdivideDefault {k rest} : IsWord k "subdivide" → Placement stod (.list [k] :: rest) (.subdivide 8)
  | categorical {k rest} : IsWord k "categorical" → Placement stod (k :: rest) .categorical
  | bounds {k rest} : IsWord k "categorical-bounds" → Placement stod (k :: rest) .bounds
  | none {k rest} : IsWord k "none" → Placement stod (k :: rest) .none

end
end Clip.Options
