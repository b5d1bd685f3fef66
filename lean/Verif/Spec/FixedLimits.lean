import Verif.Spec.WholePlot
/-!
# Plots whose limits are set (specification)
-/
namespace Clip.Rearrange
open Settings

/-- One of the commands has one of the names. -/
def Given (names : List String) (cmds : List Expr) : Prop := ∃ e ∈ cmds, ∃ n ∈ names, nameOf e = some (String.toList n)

/-- The four limits of a plot are set by its own commands. -/
def LimitsSet (cmds : List Expr) : Prop :=
  Given ["limit-x", "limit-x-min"] cmds ∧ Given ["limit-x", "limit-x-max"] cmds ∧
  Given ["limit-y", "limit-y-min"] cmds ∧ Given ["limit-y", "limit-y-max"] cmds

end Clip.Rearrange
