import Verif.Model.GLayout
import Mathlib.Analysis.SpecialFunctions.Trigonometric.Inverse
import Mathlib.LinearAlgebra.Matrix.Notation
/-!
# Plane geometry, as a reader knows it (independent of the functions of the model)
-/
namespace Clip
noncomputable section

/-- A point or vector as a complex number. -/
def Vec2.toC (v : Vec2) : ℂ := ⟨v.x, v.y⟩

/-- A 3×3 matrix in the usual sense. -/
def Mat3.toMatrix (m : Mat3) : Matrix (Fin 3) (Fin 3) ℝ := !![m.a, m.b, m.c; m.d, m.e, m.f; m.g, m.h, m.i]

/-- A column vector in the usual sense. -/
def Vec3.toVec (v : Vec3) : Fin 3 → ℝ := ![v.x, v.y, v.z]

/-- A matrix of an affine map of the plane: the last row is `0 0 1`. -/
def Mat3.Affine (m : Mat3) : Prop := m.g = 0 ∧ m.h = 0 ∧ m.i = 1

/-- `q` is on the line through `p` with direction `v`. -/
def OnLine (p v q : Vec2) : Prop := ∃ t : ℝ, q = ⟨p.x + t * v.x, p.y + t * v.y⟩

/-- `q` is on the segment from `s` to `e`. -/
def OnSeg (s e q : Vec2) : Prop :=
  ∃ t : ℝ, 0 ≤ t ∧ t ≤ 1 ∧ q = ⟨s.x + t * (e.x - s.x), s.y + t * (e.y - s.y)⟩

/-- A vector that is not zero. -/
def Vec2.NonZero (v : Vec2) : Prop := v.x ≠ 0 ∨ v.y ≠ 0

/-- The cosine of the angle between two directions. -/
def cosAngle (v0 v1 : Vec2) : ℝ := (v0.x * v1.x + v0.y * v1.y) / (v0.magnitude * v1.magnitude)

/-- The angle between two directions, from 0 to π. -/
def angleBetween (v0 v1 : Vec2) : ℝ := Real.arccos (cosAngle v0 v1)

/-- The point is within `0.001` of the bounding box of the segment, in each coordinate. -/
def NearBox (s e q : Vec2) : Prop :=
  min s.x e.x - 0.001 ≤ q.x ∧ q.x ≤ max s.x e.x + 0.001 ∧ min s.y e.y - 0.001 ≤ q.y ∧ q.y ≤ max s.y e.y + 0.001

/-- Direction `v0` and the segment from `s` to `e` are not (nearly) parallel. -/
def Crossing (v0 s e : Vec2) : Prop :=
  v0.NonZero ∧ s ≠ e ∧ angleBetween v0 (e.sub s) ≠ 0 ∧ angleBetween v0 (e.sub s) ≤ Real.pi - 0.001

/-- `q` is in the box `r`. -/
def Rect.Has (r : Rect) (q : Vec2) : Prop := r.x ≤ q.x ∧ q.x ≤ r.x + r.w ∧ r.y ≤ q.y ∧ q.y ≤ r.y + r.h

/-- Euclidean distance. -/
def dist2 (p q : Vec2) : ℝ := Real.sqrt ((p.x - q.x) ^ 2 + (p.y - q.y) ^ 2)

/-- The point of a cubic Bézier curve with parameter `t`. -/
def bezier3 (p0 c1 c2 p3 : Vec2) (t : ℝ) : Vec2 where
  x := (1 - t) ^ 3 * p0.x + 3 * (1 - t) ^ 2 * t * c1.x + 3 * (1 - t) * t ^ 2 * c2.x + t ^ 3 * p3.x
  y := (1 - t) ^ 3 * p0.y + 3 * (1 - t) ^ 2 * t * c1.y + 3 * (1 - t) * t ^ 2 * c2.y + t ^ 3 * p3.y

/-- The cubic curves of a path, each with its start point (the end of the previous command). -/
def cubics : Option Vec2 → Path → List (Vec2 × Vec2 × Vec2 × Vec2)
  | _, [] => []
  | _, .moveTo x y :: r => cubics (some ⟨x, y⟩) r
  | _, .lineTo x y :: r => cubics (some ⟨x, y⟩) r
  | _, .quadTo _ _ x y :: r => cubics (some ⟨x, y⟩) r
  | some p, .cubicTo a b c d x y :: r => (p, ⟨a, b⟩, ⟨c, d⟩, ⟨x, y⟩) :: cubics (some ⟨x, y⟩) r
  | none, .cubicTo _ _ _ _ x y :: r => cubics (some ⟨x, y⟩) r
  | p, .close :: r => cubics p r

/-- The sort of a path command. -/
inductive PathKind where | move | line | quad | cubic | close
  deriving DecidableEq, Repr

/-- The sort of a command. -/
def PathCmd.kind : PathCmd → PathKind
  | .moveTo .. => .move
  | .lineTo .. => .line
  | .quadTo .. => .quad
  | .cubicTo .. => .cubic
  | .close => .close

/-- The points of a command, in order: control points, then the end point. -/
def PathCmd.points : PathCmd → List Vec2
  | .moveTo x y => [⟨x, y⟩]
  | .lineTo x y => [⟨x, y⟩]
  | .quadTo a b x y => [⟨a, b⟩, ⟨x, y⟩]
  | .cubicTo a b c d x y => [⟨a, b⟩, ⟨c, d⟩, ⟨x, y⟩]
  | .close => []

end
end Clip
