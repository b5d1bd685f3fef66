import Verif.Spec.ElementPictures
/-!
# Other units (specification)
-/
namespace Clip.Units
open Elements
noncomputable section
variable {φ : Type}

/-- The series in other units: each value is a number, `x` becomes `f x`. -/
def Converted (P : PlotEnv φ) (f : ℝ → ℝ) (b b' : DataBuffer (Option ℝ)) : Prop :=
  ∃ vs vs', HasValues b vs ∧ HasValues b' vs' ∧ List.Forall₂ (fun v v' => ∃ x, v.IsNumber P x ∧ v'.IsNumber P (f x)) vs vs'

end
end Clip.Units
