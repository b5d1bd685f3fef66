import Verif.Spec.Geometry
import Verif.Model.Plots
/-!
# Where things belong in a plot (independent of the drawing functions)
-/
namespace Clip.PlotSpec
noncomputable section

/-- The point of the plot area at the fractions `u` of its width and `v` of its height. -/
def at_ (r : Rect) (u v : ℝ) : Vec2 := ⟨r.x + u * r.w, r.y + v * r.h⟩

/-- The open path through the given points. -/
def polyline : List Vec2 → Path
  | [] => []
  | v :: vs => .moveTo v.x v.y :: vs.map fun v => .lineTo v.x v.y

/-- The closed path through the given points. -/
def ring (vs : List Vec2) : Path := polyline vs ++ [.close]

/-- The open line through data points. -/
def seriesPath (r : Rect) (ps : List (ℝ × ℝ)) : Path := polyline (ps.map fun p => at_ r p.1 p.2)

/-- A box given by two opposite corners is a bar from `base` to `v` of the given width, centred at `c`. -/
def vbar (c width base v : ℝ) : List Vec2 :=
  [⟨c - width / 2, base⟩, ⟨c - width / 2, v⟩, ⟨c + width / 2, v⟩, ⟨c + width / 2, base⟩]

end
end Clip.PlotSpec
