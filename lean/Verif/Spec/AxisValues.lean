import Verif.Spec.AxisDraw
/-!
# Labels name the values at which they stand (specification)
-/
namespace Clip.AxisSpec
noncomputable section
variable {φ : Type}

/-- A series of one number. -/
def oneNumber (v : ℝ) : DataBuffer (Option ℝ) := ⟨[(true, 0)], [some v], []⟩

/-- A series of one text. -/
def oneText (t : Str) : DataBuffer (Option ℝ) := ⟨[(false, 0)], [], [t]⟩

/-- Data `b` of one value go to the fraction `p` of the axis. -/
def GoesTo (P : PlotEnv φ) (s : Scale) (b : DataBuffer (Option ℝ)) (p : ℝ) : Prop := translateBuf P s b = .ok [p]

/-- Each label is the text of a value, and stands where the data with this value go. -/
def Faithful (P : PlotEnv φ) (s : Scale) (fmt : Formatter) (positions : List ℝ) (texts : List Str) : Prop :=
  ∃ values : List ℝ, List.Forall₂ (fun v p => GoesTo P s (oneNumber v) p) values positions ∧
    texts = values.mapIdx fun i v => fmt i (P.toS (some v))

/-- The placements of ticks at values. -/
def ValuePlacement (s : Scale) : TickSpec → Prop
  | .interval _ _ _ | .alignat _ _ | .align _ | .linear _ | .exponential _ | .none => True
  | .subdivide n => 1 ≤ n ∧ s.kind = .linear ∧ scaleMin .exact s < scaleMax .exact s
  | .expSteps _ _ | .categorical | .bounds => False

end
end Clip.AxisSpec
