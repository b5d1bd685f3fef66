import Verif.Model.Glyph
/-!
# Outlines of glyphs (specification)

The outline format of FreeType: a contour is a closed curve through its on-points; between two on-points there is nothing
(a line), one or more conic control points (quadratic Bézier curves, with an implied on-point in the middle between two
successive control points) or two cubic control points (a cubic Bézier curve).
-/
namespace Clip.GlyphSpec
noncomputable section

/-- A point of a contour. -/
inductive Pt where
  | on (p : Vec2)
  | conic (c : Vec2)
  | cubic (c : Vec2)

/-- The point in the middle. -/
def middle (p q : Vec2) : Vec2 := ⟨(p.x + q.x) / 2, (p.y + q.y) / 2⟩

/-- `Curve p pts segs`: the pen is at `p`, and `segs` draws through the points that follow. -/
inductive Curve : Vec2 → List Pt → Path → Prop
  | done (p : Vec2) : Curve p [] []
  | line (p q : Vec2) (r : List Pt) (s : Path) : Curve q r s → Curve p (.on q :: r) (.lineTo q.x q.y :: s)
  | quad (p c q : Vec2) (r : List Pt) (s : Path) : Curve q r s → Curve p (.conic c :: .on q :: r) (.quadTo c.x c.y q.x q.y :: s)
  | implied (p c d : Vec2) (r : List Pt) (s : Path) : Curve (middle c d) (.conic d :: r) s →
      Curve p (.conic c :: .conic d :: r) (.quadTo c.x c.y (middle c d).x (middle c d).y :: s)
  | cubic (p c d q : Vec2) (r : List Pt) (s : Path) : Curve q r s →
      Curve p (.cubic c :: .cubic d :: .on q :: r) (.cubicTo c.x c.y d.x d.y q.x q.y :: s)

/-- `Contour pts path`: the path draws the closed contour.  It starts at the first point if it is on the curve, else at the last
one if it is on the curve, else in the middle between the two. (In the second case a line of length zero is added.) -/
inductive Contour : List Pt → Path → Prop
  | first (p : Vec2) (r : List Pt) (s : Path) : Curve p (r ++ [.on p]) s →
      Contour (.on p :: r) (.moveTo p.x p.y :: s ++ [.close])
  | last (c q : Vec2) (r : List Pt) (s : Path) : Curve q (.conic c :: r ++ [.on q]) s →
      Contour (.conic c :: r ++ [.on q]) (.moveTo q.x q.y :: s ++ [.lineTo q.x q.y, .close])
  | between (c d : Vec2) (r l : List Pt) (s : Path) : .conic c :: r = l ++ [.conic d] →
      Curve (middle c d) (.conic c :: r ++ [.on (middle c d)]) s →
      Contour (.conic c :: r) (.moveTo (middle c d).x (middle c d).y :: s ++ [.close])

/-- A point as FreeType stores it: coordinates in 64ths of a pixel, and flags. -/
structure RawPt where
  x : ℤ
  y : ℤ
  flags : ℕ

/-- The meaning of the two lowest flags. -/
def IsPt (r : RawPt) (p : Pt) : Prop :=
  (r.flags % 4 = 1 ∧ p = .on ⟨r.x / 64, r.y / 64⟩) ∨ (r.flags % 4 = 0 ∧ p = .conic ⟨r.x / 64, r.y / 64⟩) ∨
    (r.flags % 4 = 2 ∧ p = .cubic ⟨r.x / 64, r.y / 64⟩)

/-- The indices of the last points of the contours, if the first one starts at `start`. -/
def lastIndices (start : ℕ) : List (List RawPt) → List ℕ
  | [] => []
  | c :: cs => (start + c.length - 1) :: lastIndices (start + c.length) cs

/-- An outline of contours as FreeType stores it. -/
def Stores (o : FtOutline) (contours : List (List RawPt)) : Prop :=
  o.points = contours.flatten.map (fun p => (p.x, p.y)) ∧ o.tags = contours.flatten.map (·.flags) ∧
    o.contours = lastIndices 0 contours

/-- All coordinates of a command satisfy a condition. -/
def Within (inside : ℝ → ℝ → Prop) : PathCmd → Prop
  | .moveTo x y => inside x y
  | .lineTo x y => inside x y
  | .quadTo cx cy x y => inside cx cy ∧ inside x y
  | .cubicTo ax ay bx by' x y => inside ax ay ∧ inside bx by' ∧ inside x y
  | .close => True

/-- The command draws. -/
def Draws : PathCmd → Prop
  | .moveTo .. => False
  | .close => False
  | _ => True

end
end Clip.GlyphSpec
