import Verif.Model.Path
import Verif.Model.Machine
import Mathlib.Analysis.SpecialFunctions.Trigonometric.Inverse
/-!
# Model of `src/graphics/intersect.cc` and `src/graphics/shape_hatch.cc`

Exact arithmetic.  A direction of length zero is normalised to NaN, and every later operation keeps the NaN: such
a direction is `none`, and so is a point with NaN coordinates.  Comparisons with NaN are false.
-/
namespace Clip
noncomputable section

/-- intersect.cc:31-36: the test for parallel lines, with `fmod(M_PI - a, M_PI)` for `a` in `[0, π]`. -/
def reportedParallel (v0 v1 : Vec2) : Prop :=
  let a := Real.arccos (v0.dot v1)
  let an := if a = 0 then 0 else Real.pi - a
  an < 0.001

/-- intersect.cc:55-86: the point of intersection of two lines with normalised directions. -/
def cramerPoint (p0 v0 p1 v1 : Vec2) : Vec2 :=
  let a0 := -v0.y
  let a1 := -v1.y
  let b0 := v0.x
  let b1 := v1.x
  let c0 := a0 * p0.x + b0 * p0.y
  let c1 := a1 * p1.x + b1 * p1.y
  let dd := a0 * b1 - b0 * a1
  let dx := b1 * c0 - b0 * c1
  let dy := a0 * c1 - a1 * c0
  ⟨dx / dd, dy / dd⟩

open Classical in
/-- intersect.cc:18-89 `intersect_line_line` with `p` not null: outer `none` is the result `false`, inner `none`
a point with NaN coordinates. -/
def intersectLineLine (p0 v0 p1 v1 : Vec2) : Option (Option Vec2) :=
  match v0.normalize, v1.normalize with
  | some n0, some n1 => if reportedParallel n0 n1 then none else some (some (cramerPoint p0 n0 p1 n1))
  | _, _ => some none

/-- intersect.cc:112-118, 150-160: `pt` is outside the bounding box of `s`, `e` (with tolerance). -/
def outsideSeg (pt s e : Vec2) : Prop :=
  pt.x + 0.001 < min s.x e.x ∨ pt.x - 0.001 > max s.x e.x ∨ pt.y + 0.001 < min s.y e.y ∨
    pt.y - 0.001 > max s.y e.y

/-- intersect.cc:104, 142: the direction `normalize(sub(e, s))`, normalised again by the callee. -/
def intersectDir (p0 v0 s1 e1 : Vec2) : Option (Option Vec2) :=
  match (e1.sub s1).normalize with
  | some n => intersectLineLine p0 v0 s1 n
  | none => some none

open Classical in
/-- intersect.cc:91-127 `intersect_line_lineseg`. -/
def intersectLineSeg (p0 v0 s1 e1 : Vec2) : Option (Option Vec2) :=
  match intersectDir p0 v0 s1 e1 with
  | none => none
  | some none => some none
  | some (some pt) => if outsideSeg pt s1 e1 then none else some (some pt)

open Classical in
/-- intersect.cc:129-169 `intersect_lineseg_lineseg`. -/
def intersectSegSeg (s0 e0 s1 e1 : Vec2) : Option (Option Vec2) :=
  match intersectDir s0 (e0.sub s0) s1 e1 with
  | none => none
  | some none => some none
  | some (some pt) => if outsideSeg pt s0 e0 ∨ outsideSeg pt s1 e1 then none else some (some pt)

/-- The edges of a polygon, `vertices[i]` to `vertices[(i + 1) % size]` (intersect.cc:177-184). -/
def polyEdges (vs : List Vec2) : List (Vec2 × Vec2) :=
  vs.zip (vs.rotate 1)

/-- intersect.cc:171-190 `intersect_poly_line`: the points appended. -/
def intersectPolyLine (vs : List Vec2) (p1 v1 : Vec2) : List (Option Vec2) :=
  (polyEdges vs).filterMap fun e => intersectLineSeg p1 v1 e.1 e.2

/-- intersect.cc:192-211 `intersect_poly_lineseg`. -/
def intersectPolySeg (vs : List Vec2) (s1 e1 : Vec2) : List (Option Vec2) :=
  (polyEdges vs).filterMap fun e => intersectSegSeg e.1 e.2 s1 e1

/-- shape_hatch.cc:45-55: the vertices of one hatch line at distance `k` from the origin. -/
def hatchVertices (clip : List Vec2) (angle offset width k : ℝ) : List (Option Vec2) :=
  let o := meanVec clip
  intersectPolyLine clip (o.add ((fromDeg (angle + 90)).scale (k + offset + width * 0.5))) (fromDeg angle) ++
  intersectPolyLine clip (o.add ((fromDeg (angle + 90)).scale (k + offset + width * -0.5))) (fromDeg angle)

/-- shape_hatch.cc:39: the values of `s` in iteration `i` (`0, 2, …` stops after 0; `-1, 1`). -/
def hatchSigns (i : Nat) : List ℝ := if i = 0 then [0] else [-1, 1]

/-- shape_hatch.cc:60-79: the polygons added in iteration `i`, before sorting. -/
def hatchPieces (clip : List Vec2) (angle offset stride width : ℝ) (i : Nat) : List (List (Option Vec2)) :=
  ((hatchSigns i).map fun s => hatchVertices clip angle offset width (i * s * stride)).filter fun v => 3 ≤ v.length

/-- shape_hatch.cc:71 `sort_cw` of the vertices: as `sortCw` if all coordinates are numbers; with a NaN the mean
is NaN, all comparisons are false and the order is unspecified (here: unchanged). -/
def hatchSort (v : List (Option Vec2)) : List (Option Vec2) :=
  if v.all Option.isSome then (sortCw (v.filterMap id)).map some else v

/-- shape_hatch.cc:35-86: one iteration of the loop over `i`; the state is `i` and the polygons drawn so far.
(Each polygon becomes one `moveTo` and then `lineTo`s, shape_hatch.cc:73-79.) -/
def hatchStep (clip : List Vec2) (angle offset stride width : ℝ) (st : Nat × List (List (Option Vec2))) :
    (Nat × List (List (Option Vec2))) ⊕ List (List (Option Vec2)) :=
  let ps := hatchPieces clip angle offset stride width st.1
  let out := st.2 ++ ps.map hatchSort
  if ps.isEmpty then .inr out else .inl (st.1 + 1, out)

/-- shape_hatch.cc:19-89 `shape_hatch` returns the polygons `r`. -/
def ShapeHatch (clip : List Vec2) (angle offset stride width : ℝ) (r : List (List (Option Vec2))) : Prop :=
  if stride = 0 then r = [] else Returns (hatchStep clip angle offset stride width) (0, []) r

/-- shape_hatch.cc:19-89 `shape_hatch` never returns. -/
def ShapeHatchDiverges (clip : List Vec2) (angle offset stride width : ℝ) : Prop :=
  stride ≠ 0 ∧ Diverges (hatchStep clip angle offset stride width) (0, [])

end
end Clip
