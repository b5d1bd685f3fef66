import Verif.Spec.Options
import Verif.Spec.Geometry
import Mathlib.Order.Bounds.Basic
/-!
# The data a plot shows (specification)
-/
namespace Clip.Limits
open Settings Pictures Options
noncomputable section

variable {φ : Type} (P : PlotEnv φ)

/-- The element of this name with the options `args` shows the data `xs` along the horizontal and `ys` along the vertical
scale; `sc` are the scales it draws with. -/
inductive Shows (s : PlotState φ) (args : List Expr) (n : String) :
    List (DataBuffer (Option ℝ)) → List (DataBuffer (Option ℝ)) → Scales → Prop
  | areas {c} : n = "areas" → areasConfigure P s args = .ok c → Shows s args n [c.x, c.xoffset] [c.y, c.yoffset] c.scales
  | bars {c} : n = "bars" → barsConfigure P s args = .ok c → Shows s args n [c.x, c.xoffset] [c.y, c.yoffset] c.scales
  | errorbars {c} : n = "errorbars" → errorbarsConfigure P s args = .ok c →
      Shows s args n [c.x, c.xLow, c.xHigh] [c.y, c.yLow, c.yHigh] c.scales
  | labels {c} : n = "labels" → labelsConfigure P s args = .ok c → Shows s args n [c.x] [c.y] c.scales
  | lines {c} : n = "lines" → linesConfigure P s args = .ok c → Shows s args n [c.x] [c.y] c.scales
  | points {c} : n = "points" → pointsConfigure P s args = .ok c → Shows s args n [c.x] [c.y] c.scales
  | rectangles {c} : n = "rectangles" → rectanglesConfigure P s args = .ok c → Shows s args n [c.x] [c.y] c.scales
  | vectors {c} : n = "vectors" → vectorsConfigure P s args = .ok c → Shows s args n [c.x] [c.y] c.scales

/-- The plot is drawn on the page `L`, on which more may have been drawn since. -/
def On (L : Layer φ) (s : PlotState φ) : Prop := ∃ shapes, s.layer = draw L shapes

/-- The number is among the data. -/
def Among (bs : List (DataBuffer (Option ℝ))) (v : ℝ) : Prop :=
  ∃ b ∈ bs, ∃ vs, databufToNumbers P.parse b = some vs ∧ some v ∈ vs

/-- The command shows something at `v` on the horizontal scale: a data value, or a corner of the outline of a polygon. -/
def ShownX (L : Layer φ) (e : Expr) (v : ℝ) : Prop := ∃ s n, On L s ∧ nameOf e = some (String.toList n) ∧
  ((∃ xs ys sc, Shows P s (argsOf e) n xs ys sc ∧ Among P xs v) ∨
   (n = "polygons" ∧ ∃ c, polygonsConfigure P s (argsOf e) = .ok c ∧ ∃ p ∈ c.polys, ∃ q ∈ p.boundary, q.x = v))

/-- The command shows something at `v` on the vertical scale. -/
def ShownY (L : Layer φ) (e : Expr) (v : ℝ) : Prop := ∃ s n, On L s ∧ nameOf e = some (String.toList n) ∧
  ((∃ xs ys sc, Shows P s (argsOf e) n xs ys sc ∧ Among P ys v) ∨
   (n = "polygons" ∧ ∃ c, polygonsConfigure P s (argsOf e) = .ok c ∧ ∃ p ∈ c.polys, ∃ q ∈ p.boundary, q.y = v))

/-- The automatic limits are those of the numbers `S`: the smallest and the largest one, if there are any. -/
def LimitsOf (S : Set ℝ) (h : LimitHints ℝ) : Prop :=
  (S = ∅ ∧ h = {}) ∨ ∃ m M, h = ⟨some m, some M⟩ ∧ IsLeast S m ∧ IsGreatest S M

/-- None of the commands has one of these names. -/
def Without (names : List String) (cmds : List Expr) : Prop :=
  ∀ e ∈ cmds, ∀ n ∈ names, nameOf e ≠ some (String.toList n)

/-- The scale is linear, its limits are automatic and its padding, if any, is not negative. -/
def Automatic (s : Scale) : Prop := s.kind = .linear ∧ s.min = none ∧ s.max = none ∧ 0 ≤ s.padding

/-- A path made of straight lines between points of the box. -/
def Within (r : Rect) (p : Path) : Prop := ∀ c ∈ p, c = .close ∨ ∃ q : Vec2, r.Has q ∧ (c = .moveTo q.x q.y ∨ c = .lineTo q.x q.y)

end
end Clip.Limits
