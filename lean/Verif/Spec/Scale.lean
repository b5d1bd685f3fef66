import Verif.Model.Scale
/-!
# Specification of tick layouts
-/
namespace Clip.ScaleSpec

/-- The layout has one tick for each of the values `vs`, in order, at the position of the value, labelled with the
formatted value. -/
def TicksAt (toS : ℝ → Str) (fmt : Formatter) (pos : ℝ → Option ℝ) (vs : List ℝ) (out : ScaleLayout) : Prop :=
  out.positions = vs.map pos ∧ out.labels = vs.mapIdx fun i v => fmt i (toS v)

/-- A finite position inside the plot. -/
def Inside (p : Option ℝ) : Prop := ∃ q, p = some q ∧ 0 ≤ q ∧ q ≤ 1

/-- `b` is the multiple of the step next to `x` on the side of zero (`x` itself if it is a multiple). -/
def MultipleBefore (step x b : ℝ) : Prop := (∃ z : ℤ, b = z * step) ∧ |b| ≤ |x| ∧ |x - b| < step

/-- Comparison of doubles that may be NaN (`none`). -/
noncomputable def gtNaN (x y : Option ℝ) : Bool :=
  match x, y with
  | some a, some b => decide (a > b)
  | _, _ => false

end Clip.ScaleSpec
