import Verif.Spec.Geometry
import Mathlib.Tactic.Linarith
import Mathlib.Tactic.Ring
import Mathlib.Tactic.NormNum
import Mathlib.Tactic.FieldSimp
import Mathlib.Tactic.FinCases
/-!
# C29, C30: transforms and paths
-/
namespace Clip
noncomputable section

/-- C29: the product of two matrices, and of a matrix and a vector, is the product of linear algebra. -/
theorem C29_product (a b : Mat3) (v : Vec3) :
    (a.mul b).toMatrix = a.toMatrix * b.toMatrix ∧
    (a.mulVec v).toVec = a.toMatrix.mulVec v.toVec := by
  constructor
  · ext i j
    fin_cases i <;> fin_cases j <;>
      simp [Mat3.toMatrix, Mat3.mul, Matrix.mul_apply, Fin.sum_univ_three]
  · ext i
    fin_cases i <;>
      simp [Mat3.toMatrix, Mat3.mulVec, Vec3.toVec, Matrix.mulVec, dotProduct, Fin.sum_univ_three]

/-- C29: the product is associative, and a product acts like its factors in turn. -/
theorem C29_compose (a b c : Mat3) (v : Vec3) :
    (a.mul b).mul c = a.mul (b.mul c) ∧ (a.mul b).mulVec v = a.mulVec (b.mulVec v) := by
  constructor
  · ext <;> simp only [Mat3.mul] <;> ring
  · ext <;> simp only [Mat3.mul, Mat3.mulVec] <;> ring

/-- C29: on points of the plane, a product with an affine matrix acts like its factors in turn. -/
theorem C29_compose_points (a b : Mat3) (hb : b.Affine) (x y : ℝ) :
    (a.mul b).apply x y = a.apply (b.apply x y).x (b.apply x y).y := by
  obtain ⟨h1, h2, h3⟩ := hb
  ext <;> simp [Mat3.apply, Mat3.mulVec, Mat3.mul, h1, h2, h3] <;> ring

theorem rotate2_eq (a θ : ℝ) (h : (-a / 360) * (Real.pi * 2) = θ) :
    rotate2 a = ⟨Real.cos θ, -Real.sin θ, 0, Real.sin θ, Real.cos θ, 0, 0, 0, 1⟩ := by
  subst h
  ext <;> simp [rotate2, Mat3.zero]

/-- C29: translation moves every point by the vector, scaling multiplies the coordinates, and `rotate2 a` turns
every point about the origin by `a` degrees clockwise (multiplication by `exp (-i a π / 180)`; the y axis points
up). -/
theorem C29_actions (t s : Vec2) (a x y : ℝ) :
    (translate2 t).apply x y = ⟨x + t.x, y + t.y⟩ ∧
    (scale2 s).apply x y = ⟨s.x * x, s.y * y⟩ ∧
    ((rotate2 a).apply x y).toC = Complex.exp (-(a * Real.pi / 180 : ℝ) * Complex.I) * (Vec2.mk x y).toC := by
  refine ⟨?_, ?_, ?_⟩
  · ext <;> simp [translate2, Mat3.apply, Mat3.mulVec, Mat3.zero]
  · ext <;> simp [scale2, Mat3.apply, Mat3.mulVec, Mat3.zero]
  · rw [rotate2_eq a (-(a * Real.pi / 180)) (by ring)]
    rw [show (-(a * Real.pi / 180 : ℝ) * Complex.I : ℂ) = ((-(a * Real.pi / 180) : ℝ) : ℂ) * Complex.I by push_cast; ring]
    rw [Complex.exp_mul_I, ← Complex.ofReal_cos, ← Complex.ofReal_sin]
    generalize -(a * Real.pi / 180) = θ
    apply Complex.ext <;>
      simp [Mat3.apply, Mat3.mulVec, Vec2.toC, -Complex.ofReal_cos, -Complex.ofReal_sin] <;> ring

example : (rotate2 90).apply 1 0 = ⟨0, -1⟩ := by
  have e : ((-90 : ℝ) / 360) * (Real.pi * 2) = -(Real.pi / 2) := by ring
  ext <;> simp [rotate2, Mat3.apply, Mat3.mulVec, Mat3.zero, e]

/-- C29: the named transforms are affine, compose, and have the expected inverses. -/
theorem C29_inverses (t u s r : Vec2) (a b : ℝ) :
    (translate2 t).Affine ∧ (scale2 s).Affine ∧ (rotate2 a).Affine ∧
    (translate2 t).mul (translate2 u) = translate2 (t.add u) ∧
    (scale2 s).mul (scale2 r) = scale2 ⟨s.x * r.x, s.y * r.y⟩ ∧
    (rotate2 a).mul (rotate2 b) = rotate2 (a + b) ∧
    (∀ x y, ((translate2 t).mul (translate2 ⟨-t.x, -t.y⟩)).apply x y = ⟨x, y⟩) ∧
    (s.x ≠ 0 → s.y ≠ 0 → ∀ x y, ((scale2 s).mul (scale2 ⟨1 / s.x, 1 / s.y⟩)).apply x y = ⟨x, y⟩) ∧
    (∀ x y, ((rotate2 a).mul (rotate2 (-a))).apply x y = ⟨x, y⟩) ∧
    (∀ x y, ((rotate2 a).mul (rotate2 (360 - a))).apply x y = ⟨x, y⟩) := by
  have hr : ∀ a b : ℝ, (rotate2 a).mul (rotate2 b) = rotate2 (a + b) := by
    intro a b
    rw [rotate2_eq a _ rfl, rotate2_eq b _ rfl,
      rotate2_eq (a + b) ((-a / 360) * (Real.pi * 2) + (-b / 360) * (Real.pi * 2)) (by ring)]
    generalize (-a / 360) * (Real.pi * 2) = α
    generalize (-b / 360) * (Real.pi * 2) = β
    ext <;> simp [Mat3.mul, Real.cos_add, Real.sin_add] <;> ring
  refine ⟨by simp [Mat3.Affine, translate2, Mat3.zero], by simp [Mat3.Affine, scale2, Mat3.zero],
    by simp [Mat3.Affine, rotate2, Mat3.zero], ?_, ?_, hr a b, ?_, ?_, ?_, ?_⟩
  · ext <;> simp [translate2, Mat3.mul, Mat3.zero, Vec2.add]; ring; ring
  · ext <;> simp [scale2, Mat3.mul, Mat3.zero]
  · intro x y; ext <;> simp [translate2, Mat3.mul, Mat3.zero, Mat3.apply, Mat3.mulVec]
  · intro h1 h2 x y
    ext <;> simp [scale2, Mat3.mul, Mat3.zero, Mat3.apply, Mat3.mulVec, h1, h2]
  · intro x y
    rw [hr]
    ext <;> simp [rotate2, Mat3.zero, Mat3.apply, Mat3.mulVec]
  · intro x y
    rw [hr, rotate2_eq _ (-(2 * Real.pi)) (by ring)]
    ext <;> simp [Mat3.apply, Mat3.mulVec]

/-- C29: `from_deg a` is the unit vector to the right turned `a` degrees clockwise, the same turn as `rotate2 a`;
rotations keep distances. -/
theorem C29_from_deg (a : ℝ) (p q : Vec2) :
    (rotate2 a).apply 1 0 = fromDeg a ∧ (fromDeg a).magnitude = 1 ∧
    dist2 ((rotate2 a).apply p.x p.y) ((rotate2 a).apply q.x q.y) = dist2 p q := by
  have e : (-a / 360) * (Real.pi * 2) = -a / 180 * Real.pi := by ring
  refine ⟨?_, ?_, ?_⟩
  · ext <;> simp [rotate2, Mat3.apply, Mat3.mulVec, Mat3.zero, fromDeg, e]
  · simp only [Vec2.magnitude, fromDeg]
    rw [← sq, ← sq, Real.cos_sq_add_sin_sq, Real.sqrt_one]
  · unfold dist2
    congr 1
    simp only [rotate2, Mat3.apply, Mat3.mulVec, Mat3.zero, e]
    have := Real.cos_sq_add_sin_sq (-a / 180 * Real.pi)
    generalize Real.cos (-a / 180 * Real.pi) = c at *
    generalize Real.sin (-a / 180 * Real.pi) = s at *
    linear_combination ((p.x - q.x) ^ 2 + (p.y - q.y) ^ 2) * this

/-- C30: transforming a path keeps the sort of every command and applies the matrix to every point of it, control
points included. -/
theorem C30_transform (p : Path) (t : Mat3) :
    (pathTransform p t).map PathCmd.kind = p.map PathCmd.kind ∧
    (pathTransform p t).map PathCmd.points = p.map fun c => c.points.map fun q => t.apply q.x q.y := by
  simp only [pathTransform, List.map_map]
  constructor <;> (apply List.map_congr_left; intro c _; cases c <;> rfl)

/-- C30: transforming twice is transforming by the product, and the identity matrix changes nothing. -/
theorem C30_transform_compose (p : Path) (a b : Mat3) (hb : b.Affine) :
    pathTransform (pathTransform p b) a = pathTransform p (a.mul b) ∧
    pathTransform p (scale2 ⟨1, 1⟩) = p := by
  have h := fun x y => C29_compose_points a b hb x y
  constructor
  · simp only [pathTransform, List.map_map]
    apply List.map_congr_left
    intro c _
    cases c <;> simp [transformCmd, h]
  · unfold pathTransform
    conv_rhs => rw [← List.map_id p]
    apply List.map_congr_left
    intro c _
    cases c <;> simp [transformCmd, scale2, Mat3.apply, Mat3.mulVec, Mat3.zero]

theorem pathToPolygon_lineTos (vs : List Vec2) : pathToPolygon (lineTos vs) = vs := by
  induction vs with
  | nil => rfl
  | cons v vs ih =>
    simp only [lineTos, List.map_cons, pathToPolygon, List.filterMap_cons] at ih ⊢
    rw [ih]

/-- C30: converting a polygon to a path and back gives the polygon; the path is one closed subpath. -/
theorem C30_polygon_round_trip (vs : List Vec2) :
    pathToPolygon (pathFromPolygon vs) = vs ∧
    (vs ≠ [] → (pathFromPolygon vs).map PathCmd.kind =
      .move :: (List.replicate (vs.length - 1) .line ++ [.close])) := by
  cases vs with
  | nil => exact ⟨rfl, by simp⟩
  | cons v vs =>
    constructor
    · have := pathToPolygon_lineTos vs
      simp only [pathFromPolygon, pathToPolygon, List.cons_append, List.filterMap_cons,
        List.filterMap_append, List.filterMap_nil, List.append_nil] at this ⊢
      rw [this]
    · intro _
      simp only [pathFromPolygon, lineTos, List.cons_append, List.map_cons, List.map_append, List.map_map,
        List.length_cons, Nat.add_sub_cancel, PathCmd.kind, List.map_nil]
      congr 2
      induction vs with
      | nil => rfl
      | cons w vs ih => simpa [List.replicate_succ, PathCmd.kind] using ih

/-- C30: a polygon with holes becomes one closed subpath per ring that has vertices, boundary first; every vertex
of every ring is kept, in order. -/
theorem C30_poly2 (p : Poly2) :
    pathFromPoly2 p = ((p.boundary :: p.holes).map pathFromPolygon).flatten ∧
    pathToPolygon (pathFromPoly2 p) = p.boundary ++ p.holes.flatten := by
  have ring : ∀ (q : Path) (vs : List Vec2), pathAddPolyRing q vs = q ++ pathFromPolygon vs := by
    intro q vs; cases vs <;> simp [pathAddPolyRing, pathFromPolygon]
  have h1 : ∀ (hs : List (List Vec2)) (q : Path),
      hs.foldl pathAddPolyRing q = q ++ (hs.map pathFromPolygon).flatten := by
    intro hs
    induction hs with
    | nil => simp
    | cons r hs ih => intro q; rw [List.foldl_cons, ih, ring]; simp
  have h2 : pathFromPoly2 p = ((p.boundary :: p.holes).map pathFromPolygon).flatten := by
    rw [pathFromPoly2, h1, ring]; simp
  refine ⟨h2, ?_⟩
  rw [h2]
  have : ∀ rs : List (List Vec2), pathToPolygon (rs.map pathFromPolygon).flatten = rs.flatten := by
    intro rs
    induction rs with
    | nil => rfl
    | cons r rs ih =>
      rw [List.map_cons, List.flatten_cons, List.flatten_cons, pathToPolygon, List.filterMap_append]
      have e1 := (C30_polygon_round_trip r).1
      unfold pathToPolygon at e1 ih
      rw [e1, ih]
  rw [this]; rfl

/-- C30: the rectangle of a box has the four corners of the box as vertices, and the centred form is the same
rectangle, entered at another corner. -/
theorem C30_rectangle (b : Rect) :
    pathToPolygon (pathAddRect [] b) = [⟨b.x, b.y⟩, ⟨b.x, b.y + b.h⟩, ⟨b.x + b.w, b.y + b.h⟩, ⟨b.x + b.w, b.y⟩] ∧
    (pathToPolygon (pathAddRectCentered [] ⟨b.x + b.w / 2, b.y + b.h / 2⟩ ⟨b.w, b.h⟩)).Perm
      (pathToPolygon (pathAddRect [] b)) := by
  constructor
  · rfl
  · have e1 : b.x + b.w / 2 + b.w / 2 = b.x + b.w := by ring
    have e2 : b.x + b.w / 2 - b.w / 2 = b.x := by ring
    have e3 : b.y + b.h / 2 + b.h / 2 = b.y + b.h := by ring
    have e4 : b.y + b.h / 2 - b.h / 2 = b.y := by ring
    simp only [pathAddRectCentered, pathAddRect, pathToPolygon, List.nil_append, List.filterMap_cons,
      List.filterMap_nil, e1, e2, e3, e4]
    exact List.perm_append_comm (l₁ := [_, _]) (l₂ := [_, _])

/-- A quarter of a circle of radius 1 as a Bézier curve: with `u = t (1 - t)`, the square of the distance from the
centre. -/
theorem quarter_sq (c t : ℝ) :
    (3 * (1 - t) ^ 2 * t * c + 3 * (1 - t) * t ^ 2 + t ^ 3) ^ 2 +
    ((1 - t) ^ 3 + 3 * (1 - t) ^ 2 * t + 3 * (1 - t) * t ^ 2 * c) ^ 2 =
    1 + (t * (1 - t)) ^ 2 * (9 * c ^ 2 + 6 * c - 6) + (t * (1 - t)) ^ 3 * (24 * c - 18 * c ^ 2 - 8) := by
  ring

theorem quarter_bounds (t : ℝ) (h0 : 0 ≤ t) (h1 : t ≤ 1) :
    1 ≤ 1 + (t * (1 - t)) ^ 2 * (9 * kCircle ^ 2 + 6 * kCircle - 6) +
      (t * (1 - t)) ^ 3 * (24 * kCircle - 18 * kCircle ^ 2 - 8) ∧
    1 + (t * (1 - t)) ^ 2 * (9 * kCircle ^ 2 + 6 * kCircle - 6) +
      (t * (1 - t)) ^ 3 * (24 * kCircle - 18 * kCircle ^ 2 - 8) ≤ 1.000273 ^ 2 := by
  have hu0 : 0 ≤ t * (1 - t) := mul_nonneg h0 (by linarith)
  have hu1 : t * (1 - t) ≤ 1 / 4 := by nlinarith [sq_nonneg (t - 1 / 2)]
  generalize t * (1 - t) = u at *
  unfold kCircle
  constructor
  · have : 0 ≤ u ^ 2 * ((9 * (0.552284749831 : ℝ) ^ 2 + 6 * 0.552284749831 - 6) +
        u * (24 * 0.552284749831 - 18 * 0.552284749831 ^ 2 - 8)) := by
      apply mul_nonneg (sq_nonneg _)
      norm_num
      linarith
    linarith
  · have key : u ^ 2 * (1 - 4 * u) ≤ 1 / 108 := by
      have : 0 ≤ 4 * ((u - 1 / 6) ^ 2 * (u + 1 / 12)) := by
        apply mul_nonneg (by norm_num); exact mul_nonneg (sq_nonneg _) (by linarith)
      nlinarith
    have h3 : u ^ 3 ≤ 1 / 64 := by
      have := pow_le_pow_left₀ hu0 hu1 3
      norm_num at this ⊢; exact this
    have h30 : 0 ≤ u ^ 3 := pow_nonneg hu0 3
    norm_num
    nlinarith

/-- C30: the circle is four curves, each starting where the previous one ends, and no point of it is more than
0.0273 % of the radius away from the true circle. -/
theorem C30_circle (o : Vec2) (r : ℝ) (hr : 0 ≤ r) :
    (cubics none (pathAddCircle [] o r)).length = 4 ∧
    (pathAddCircle [] o r).map PathCmd.kind = [.move, .cubic, .cubic, .cubic, .cubic, .close] ∧
    (pathToPolygon (pathAddCircle [] o r)) =
      [⟨o.x, o.y - r⟩, ⟨o.x - r, o.y⟩, ⟨o.x, o.y + r⟩, ⟨o.x + r, o.y⟩, ⟨o.x, o.y - r⟩] ∧
    ∀ q ∈ cubics none (pathAddCircle [] o r), ∀ t : ℝ, 0 ≤ t → t ≤ 1 →
      r ≤ dist2 (bezier3 q.1 q.2.1 q.2.2.1 q.2.2.2 t) o ∧
      dist2 (bezier3 q.1 q.2.1 q.2.2.1 q.2.2.2 t) o ≤ 1.000273 * r := by
  refine ⟨rfl, rfl, rfl, ?_⟩
  intro q hq t h0 h1
  have key : ((bezier3 q.1 q.2.1 q.2.2.1 q.2.2.2 t).x - o.x) ^ 2 + ((bezier3 q.1 q.2.1 q.2.2.1 q.2.2.2 t).y - o.y) ^ 2 =
      r ^ 2 * ((3 * (1 - t) ^ 2 * t * kCircle + 3 * (1 - t) * t ^ 2 + t ^ 3) ^ 2 +
        ((1 - t) ^ 3 + 3 * (1 - t) ^ 2 * t + 3 * (1 - t) * t ^ 2 * kCircle) ^ 2) := by
    simp only [pathAddCircle, List.nil_append, cubics, List.mem_cons, List.not_mem_nil, or_false] at hq
    rcases hq with rfl | rfl | rfl | rfl <;> simp only [bezier3] <;> ring
  unfold dist2
  rw [key, quarter_sq]
  obtain ⟨b1, b2⟩ := quarter_bounds t h0 h1
  have hr2 : 0 ≤ r ^ 2 := sq_nonneg r
  constructor
  · apply Real.le_sqrt_of_sq_le
    nlinarith
  · apply Real.sqrt_le_iff.2
    constructor
    · positivity
    · nlinarith

example : (3 : ℝ) ≤ dist2 (bezier3 ⟨1, -2⟩ ⟨1 - 3 * kCircle, -2⟩ ⟨-2, 1 - 3 * kCircle⟩ ⟨-2, 1⟩ (1 / 3)) ⟨1, 1⟩ := by
  have := ((C30_circle ⟨1, 1⟩ 3 (by norm_num)).2.2.2 (⟨1, 1 - 3⟩, ⟨1 - 3 * kCircle, 1 - 3⟩, ⟨1 - 3, 1 - 3 * kCircle⟩, ⟨1 - 3, 1⟩)
    (by simp [pathAddCircle, cubics]) (1 / 3) (by norm_num) (by norm_num)).1
  norm_num at this
  convert this using 3

/-- C29: sorting in (counter-)clockwise order keeps exactly the given points and puts them in the order of their
angle around the mean. -/
theorem C29_sort (v : List Vec2) :
    (sortCw v).Perm v ∧ (sortCcw v).Perm v ∧
    (sortCw v).Pairwise (fun p q => atan2 (q.sub (meanVec v)) ≤ atan2 (p.sub (meanVec v))) ∧
    (sortCcw v).Pairwise (fun p q => atan2 (p.sub (meanVec v)) ≤ atan2 (q.sub (meanVec v))) := by
  refine ⟨List.mergeSort_perm _ _, List.mergeSort_perm _ _, ?_, ?_⟩
  · have := List.pairwise_mergeSort (le := fun a b => decide (atan2 (b.sub (meanVec v)) ≤ atan2 (a.sub (meanVec v))))
      (by intro a b c h1 h2; simp only [decide_eq_true_eq] at *; linarith)
      (by intro a b; simpa using le_total _ _) v
    simpa [sortCw] using this
  · have := List.pairwise_mergeSort (le := fun a b => decide (atan2 (a.sub (meanVec v)) ≤ atan2 (b.sub (meanVec v))))
      (by intro a b c h1 h2; simp only [decide_eq_true_eq] at *; linarith)
      (by intro a b; simpa using le_total _ _) v
    simpa [sortCcw] using this

/-- C29: the mean of points is their sum divided by their number. -/
theorem C29_mean (v : List Vec2) :
    (meanVec v).x = (v.map Vec2.x).sum / v.length ∧ (meanVec v).y = (v.map Vec2.y).sum / v.length := by
  have : ∀ (l : List Vec2) (a : Vec2), (l.foldl Vec2.add a).x = a.x + (l.map Vec2.x).sum ∧
      (l.foldl Vec2.add a).y = a.y + (l.map Vec2.y).sum := by
    intro l
    induction l with
    | nil => intro a; simp
    | cons h l ih => intro a; rw [List.foldl_cons]; simp [ih, Vec2.add]; constructor <;> ring
  obtain ⟨h1, h2⟩ := this v ⟨0, 0⟩
  simp only [meanVec, Vec2.scale, h1, h2, zero_add]
  constructor <;> ring

/-- C29: length, dot product and direction are the usual ones: the dot product is the product of the lengths and the
cosine of the angle, normalizing a vector gives the vector of length 1 in its direction, and a zero vector has no
direction. -/
theorem C29_vectors (a b : Vec2) :
    a.magnitude = ‖a.toC‖ ∧
    a.dot b = (a.toC * (starRingEnd ℂ) b.toC).re ∧
    (a.NonZero → b.NonZero → a.dot b = ‖a.toC‖ * ‖b.toC‖ * Real.cos (angleBetween a b)) ∧
    (a.NonZero → ∃ u, a.normalize = some u ∧ u.magnitude = 1 ∧ a = ⟨a.magnitude * u.x, a.magnitude * u.y⟩) ∧
    (a.normalize = none ↔ a = ⟨0, 0⟩) := by
  have hm : ∀ v : Vec2, v.magnitude = ‖v.toC‖ := by
    intro v
    rw [Vec2.magnitude, Complex.norm_def, Complex.normSq_apply]; rfl
  have hz : ∀ v : Vec2, v.magnitude = 0 ↔ v = ⟨0, 0⟩ := by
    intro v
    rw [hm, norm_eq_zero]
    constructor
    · intro h
      have h1 := congrArg Complex.re h
      have h2 := congrArg Complex.im h
      exact Vec2.ext h1 h2
    · rintro rfl; rfl
  have hp : ∀ v : Vec2, v.NonZero → 0 < v.magnitude := by
    intro v hv
    refine lt_of_le_of_ne (Real.sqrt_nonneg _) (fun h => ?_)
    have := (hz v).1 h.symm
    subst this
    rcases hv with h | h <;> exact h rfl
  refine ⟨hm a, ?_, ?_, ?_, ?_⟩
  · simp [Vec2.dot, Vec2.toC, Complex.mul_re]
  · intro ha hb
    have h1 := hp a ha
    have h2 := hp b hb
    have hsq : (a.x * b.x + a.y * b.y) ^ 2 ≤ (a.magnitude * b.magnitude) ^ 2 := by
      rw [mul_pow, Vec2.magnitude, Vec2.magnitude, Real.sq_sqrt (by nlinarith [sq_nonneg a.x, sq_nonneg a.y]),
        Real.sq_sqrt (by nlinarith [sq_nonneg b.x, sq_nonneg b.y])]
      nlinarith [sq_nonneg (a.x * b.y - a.y * b.x)]
    have habs := abs_le_of_sq_le_sq' hsq (by positivity)
    have hpos := mul_pos h1 h2
    rw [angleBetween, Real.cos_arccos, cosAngle, ← hm, ← hm, Vec2.dot]
    · field_simp
    · rw [cosAngle, le_div_iff₀ hpos]; linarith [habs.1]
    · rw [cosAngle, div_le_one hpos]; exact habs.2
  · intro ha
    have h1 := hp a ha
    refine ⟨⟨a.x / a.magnitude, a.y / a.magnitude⟩, by simp [Vec2.normalize, h1.ne'], ?_, ?_⟩
    · have hs : a.magnitude * a.magnitude = a.x * a.x + a.y * a.y :=
        Real.mul_self_sqrt (by nlinarith [sq_nonneg a.x, sq_nonneg a.y])
      have : a.x / a.magnitude * (a.x / a.magnitude) + a.y / a.magnitude * (a.y / a.magnitude) = 1 := by
        have : a.magnitude ≠ 0 := h1.ne'
        field_simp
        nlinarith
      conv_lhs => rw [Vec2.magnitude]
      simp only
      rw [this, Real.sqrt_one]
    · ext <;> simp only <;> field_simp
  · rw [Vec2.normalize]
    split
    · next h => simp [(hz a).1 h]
    · next h => simp only [reduceCtorEq, false_iff]; exact fun e => h ((hz a).2 e)

/-- C29: the mirror matrix exchanges up and down; twice is the identity. -/
theorem C29_mirror (x y : ℝ) :
    invertY2.apply x y = ⟨x, -y⟩ ∧ (invertY2.mul invertY2).apply x y = ⟨x, y⟩ ∧
    (invertY2.apply x y).toC = (starRingEnd ℂ) (Vec2.mk x y).toC := by
  have h : invertY2.apply x y = ⟨x, -y⟩ := by ext <;> simp [invertY2, Mat3.apply, Mat3.mulVec, Mat3.zero]
  refine ⟨h, ?_, ?_⟩
  · ext <;> simp [invertY2, Mat3.apply, Mat3.mulVec, Mat3.zero, Mat3.mul]
  · rw [h]; apply Complex.ext <;> simp [Vec2.toC]

/-- C30: the polygon of a path is made of the end points of its commands. -/
theorem C30_to_polygon (p : Path) : pathToPolygon p = p.filterMap fun c => c.points.getLast? := by
  unfold pathToPolygon
  congr 1
  funext c
  cases c <;> rfl

/-- C30: a line or a line through several points is added behind what the path contains: it moves to the first point
and draws lines to the others, in order. -/
theorem C30_add_lines (p : Path) (v : Vec2) (vs : List Vec2) (b : Vec2) :
    pathAddPolyLine p (v :: vs) = p ++ pathAddPolyLine [] (v :: vs) ∧
    (pathAddPolyLine [] (v :: vs)).map PathCmd.kind = .move :: List.replicate vs.length .line ∧
    (pathAddPolyLine [] (v :: vs)).map PathCmd.points = (v :: vs).map (fun q => [q]) ∧
    pathAddPolyLine p [] = p ∧
    pathAddLine p v b = pathAddPolyLine p [v, b] ∧
    (∀ ws, pathAddPolyRing p ws = p ++ pathFromPolygon ws) := by
  refine ⟨by simp [pathAddPolyLine], ?_, ?_, rfl, ?_, ?_⟩
  · simp [pathAddPolyLine, lineTos, PathCmd.kind, Function.comp_def, List.map_const']
  · simp [pathAddPolyLine, lineTos, PathCmd.points, Function.comp_def]
  · simp [pathAddPolyLine, pathAddLine, lineTos]
  · intro ws; cases ws <;> simp [pathAddPolyRing, pathFromPolygon]

/-- C30: a flattened polygon keeps all its rings and vertices, without their third coordinate. -/
theorem C30_flatten (p : Poly3) :
    ((poly3To2 p).boundary :: (poly3To2 p).holes).map (·.map fun v => (v.x, v.y)) =
      (p.boundary :: p.holes).map (·.map fun v => (v.x, v.y)) := by
  simp [poly3To2, polyline3To2, Function.comp_def]

end
end Clip
