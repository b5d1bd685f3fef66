import Mathlib.Data.Real.Basic
import Mathlib.Analysis.Real.Sqrt
import Mathlib.Analysis.SpecialFunctions.Trigonometric.Basic
import Mathlib.Analysis.SpecialFunctions.Complex.Arg
import Mathlib.Data.List.Sort
/-!
# Model of `src/vmath.cc`

Doubles are real numbers and arithmetic is exact.  Operations that produce NaN in the code say so in their
comment.
-/
namespace Clip
noncomputable section

/-- vmath.h:31-39 `struct vec2`. -/
@[ext] structure Vec2 where
  x : ℝ
  y : ℝ

/-- vmath.h:49-56 `struct vec3`. -/
@[ext] structure Vec3 where
  x : ℝ
  y : ℝ
  z : ℝ

/-- vmath.h:66-77 `struct mat3`: rows `a b c`, `d e f`, `g h i`. -/
@[ext] structure Mat3 where
  a : ℝ
  b : ℝ
  c : ℝ
  d : ℝ
  e : ℝ
  f : ℝ
  g : ℝ
  h : ℝ
  i : ℝ

/-- vmath.cc:73-82 `mat3::mat3()`. -/
def Mat3.zero : Mat3 := ⟨0, 0, 0, 0, 0, 0, 0, 0, 0⟩

/-- vmath.cc:88-90 `magnitude`. -/
def Vec2.magnitude (v : Vec2) : ℝ := Real.sqrt (v.x * v.x + v.y * v.y)

/-- vmath.cc:92-95 `normalize`; a zero vector gives NaN coordinates, here `none`. -/
def Vec2.normalize (v : Vec2) : Option Vec2 :=
  if v.magnitude = 0 then none else some ⟨v.x / v.magnitude, v.y / v.magnitude⟩

/-- vmath.cc:97-99 `add`. -/
def Vec2.add (a b : Vec2) : Vec2 := ⟨a.x + b.x, a.y + b.y⟩

/-- vmath.cc:101-103 `sub`. -/
def Vec2.sub (a b : Vec2) : Vec2 := ⟨a.x - b.x, a.y - b.y⟩

/-- vmath.cc:105-107 `mul(vec2, double)`. -/
def Vec2.scale (v : Vec2) (s : ℝ) : Vec2 := ⟨v.x * s, v.y * s⟩

/-- vmath.cc:109-123 `mul(mat3, mat3)`. -/
def Mat3.mul (a b : Mat3) : Mat3 where
  a := a.a * b.a + a.b * b.d + a.c * b.g
  b := a.a * b.b + a.b * b.e + a.c * b.h
  c := a.a * b.c + a.b * b.f + a.c * b.i
  d := a.d * b.a + a.e * b.d + a.f * b.g
  e := a.d * b.b + a.e * b.e + a.f * b.h
  f := a.d * b.c + a.e * b.f + a.f * b.i
  g := a.g * b.a + a.h * b.d + a.i * b.g
  h := a.g * b.b + a.h * b.e + a.i * b.h
  i := a.g * b.c + a.h * b.f + a.i * b.i

/-- vmath.cc:125-130 `mul(mat3, vec3)`. -/
def Mat3.mulVec (m : Mat3) (v : Vec3) : Vec3 :=
  ⟨m.a * v.x + m.b * v.y + m.c * v.z, m.d * v.x + m.e * v.y + m.f * v.z, m.g * v.x + m.h * v.y + m.i * v.z⟩

/-- vmath.cc:132-134 `dot`. -/
def Vec2.dot (a b : Vec2) : ℝ := a.x * b.x + a.y * b.y

/-- vmath.cc:136-139 `from_deg`. -/
def fromDeg (deg : ℝ) : Vec2 :=
  let a := -deg / 180 * Real.pi
  ⟨Real.cos a, Real.sin a⟩

/-- vmath.cc:141-149 `mean`; of an empty list the code returns NaN, the model zero. -/
def meanVec (v : List Vec2) : Vec2 := (v.foldl Vec2.add ⟨0, 0⟩).scale (1 / v.length)

/-- vmath.cc:151-160 `rotate2`; `TAU` is vmath.cc:22. -/
def rotate2 (angle : ℝ) : Mat3 :=
  let t := (-angle / 360) * (Real.pi * 2)
  { Mat3.zero with a := Real.cos t, b := Real.sin t * -1, d := Real.sin t, e := Real.cos t, i := 1 }

/-- vmath.cc:162-168 `scale2`. -/
def scale2 (s : Vec2) : Mat3 := { Mat3.zero with a := s.x, e := s.y, i := 1 }

/-- vmath.cc:170-178 `translate2`. -/
def translate2 (t : Vec2) : Mat3 := { Mat3.zero with a := 1, e := 1, i := 1, c := t.x, f := t.y }

/-- vmath.cc:180-186 `invert_y2`. -/
def invertY2 : Mat3 := { Mat3.zero with a := 1, e := -1, i := 1 }

/-- `atan2(v.y, v.x)` of the C library, for numbers without signed zeros. -/
def atan2 (v : Vec2) : ℝ := Complex.arg ⟨v.x, v.y⟩

/-- vmath.cc:188-196 `sort_cw`.  `std::sort` is unstable: the order of elements at equal angles is unspecified;
merge sort is one of the possible results. -/
def sortCw (v : List Vec2) : List Vec2 :=
  let m := meanVec v
  v.mergeSort fun a b => decide (atan2 (b.sub m) ≤ atan2 (a.sub m))

/-- vmath.cc:198-206 `sort_ccw`; see `sortCw`. -/
def sortCcw (v : List Vec2) : List Vec2 :=
  let m := meanVec v
  v.mergeSort fun a b => decide (atan2 (a.sub m) ≤ atan2 (b.sub m))

end
end Clip
