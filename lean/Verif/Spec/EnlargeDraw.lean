import Verif.Spec.Enlarge
/-!
# Drawings without pixels (specification)
-/
namespace Clip.Enlarge
open Settings

/-- This text stands somewhere in the expression. -/
inductive Has : Expr → Str → Prop
  | literal (s) : Has (.literal s) s
  | value (s) : Has (.value s) s
  | list {e es s} : e ∈ es → Has e s → Has (.list es) s

/-- Nowhere in the expression is there a number of pixels. -/
def NoPixels (stod : Str → Option (ℝ × Nat)) (e : Expr) : Prop :=
  ∀ s v pos, Has e s → stod s = some (v, pos) → s.drop pos ≠ ['p', 'x']

/-- A command of a drawing without pixels: none of its options gives a length in pixels.  The texts to be shown and the names
of fonts do not matter. -/
def PlainDrawing (stod : Str → Option (ℝ × Nat)) (e : Expr) : Prop :=
  ∀ c ∈ argsOf e, nameOf c = some "text".toList ∨ nameOf c = some "font".toList ∨ NoPixels stod c

end Clip.Enlarge
