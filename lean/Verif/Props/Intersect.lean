import Verif.Model.Intersect
import Verif.Spec.Geometry
import Verif.Props.VMath
import Mathlib.Tactic.Linarith
import Mathlib.Tactic.Ring
import Mathlib.Tactic.NormNum
import Mathlib.Tactic.FieldSimp
import Mathlib.Tactic.Positivity
import Mathlib.Algebra.Order.Archimedean.Basic
import Mathlib.Analysis.Real.Pi.Bounds
/-!
# C41, C62: intersections and hatching
-/
namespace Clip
noncomputable section

theorem Vec2.NonZero.sq_pos {v : Vec2} (h : v.NonZero) : 0 < v.x * v.x + v.y * v.y := by
  rcases h with h | h
  · have := mul_self_pos.2 h; nlinarith [mul_self_nonneg v.y]
  · have := mul_self_pos.2 h; nlinarith [mul_self_nonneg v.x]

theorem magnitude_pos {v : Vec2} (h : v.NonZero) : 0 < v.magnitude := Real.sqrt_pos.2 h.sq_pos

theorem normalize_some {v : Vec2} (h : v.NonZero) :
    v.normalize = some ⟨v.x / v.magnitude, v.y / v.magnitude⟩ := by
  rw [Vec2.normalize, if_neg (ne_of_gt (magnitude_pos h))]

theorem normalize_none {v : Vec2} (h : ¬ v.NonZero) : v.normalize = none := by
  have : v.x = 0 ∧ v.y = 0 := by
    by_contra hc
    apply h
    by_cases hx : v.x = 0
    · exact Or.inr fun hy => hc ⟨hx, hy⟩
    · exact Or.inl hx
  rw [Vec2.normalize, if_pos]
  simp [Vec2.magnitude, this.1, this.2]

theorem magnitude_sq (v : Vec2) : v.magnitude ^ 2 = v.x * v.x + v.y * v.y :=
  Real.sq_sqrt (by nlinarith [mul_self_nonneg v.x, mul_self_nonneg v.y])

theorem unit_sq {v : Vec2} (h : v.NonZero) :
    (v.x / v.magnitude) ^ 2 + (v.y / v.magnitude) ^ 2 = 1 := by
  have hm := magnitude_pos h
  have := magnitude_sq v
  field_simp
  rw [this]; ring

theorem arccos_angle (v0 v1 : Vec2) : Real.arccos (cosAngle v0 v1) = angleBetween v0 v1 := rfl

theorem lineLine_eq (p0 v0 p1 v1 : Vec2) (h0 : v0.NonZero) (h1 : v1.NonZero) :
    intersectLineLine p0 v0 p1 v1 =
      if angleBetween v0 v1 = 0 ∨ Real.pi - 0.001 < angleBetween v0 v1 then none
      else some (some (cramerPoint p0 ⟨v0.x / v0.magnitude, v0.y / v0.magnitude⟩ p1
        ⟨v1.x / v1.magnitude, v1.y / v1.magnitude⟩)) := by
  have m0 := magnitude_pos h0
  have m1 := magnitude_pos h1
  have e : Vec2.dot ⟨v0.x / v0.magnitude, v0.y / v0.magnitude⟩ ⟨v1.x / v1.magnitude, v1.y / v1.magnitude⟩ =
      cosAngle v0 v1 := by
    simp only [Vec2.dot, cosAngle]; field_simp
  simp only [intersectLineLine, normalize_some h0, normalize_some h1]
  have key : reportedParallel ⟨v0.x / v0.magnitude, v0.y / v0.magnitude⟩ ⟨v1.x / v1.magnitude, v1.y / v1.magnitude⟩ ↔
      (angleBetween v0 v1 = 0 ∨ Real.pi - 0.001 < angleBetween v0 v1) := by
    simp only [reportedParallel, e, arccos_angle]
    by_cases ha : angleBetween v0 v1 = 0
    · simp only [ha, if_true, true_or, iff_true]; norm_num
    · simp only [ha, if_false, false_or]
      constructor <;> intro h <;> linarith
  by_cases hp : angleBetween v0 v1 = 0 ∨ Real.pi - 0.001 < angleBetween v0 v1
  · rw [if_pos (key.2 hp), if_pos hp]
  · rw [if_neg (fun h => hp (key.1 h)), if_neg hp]

theorem det_ne_zero (v0 v1 : Vec2) (h0 : v0.NonZero) (h1 : v1.NonZero)
    (h : ¬ (angleBetween v0 v1 = 0 ∨ Real.pi - 0.001 < angleBetween v0 v1)) :
    v0.x * v1.y - v0.y * v1.x ≠ 0 := by
  intro hd
  have m0 := magnitude_pos h0
  have m1 := magnitude_pos h1
  have hsq : cosAngle v0 v1 ^ 2 = 1 := by
    rw [cosAngle, div_pow, mul_pow, magnitude_sq, magnitude_sq, div_eq_one_iff_eq
      (ne_of_gt (mul_pos h0.sq_pos h1.sq_pos))]
    linear_combination (-(v0.x * v1.y - v0.y * v1.x)) * hd
  apply h
  have hf : (cosAngle v0 v1 - 1) * (cosAngle v0 v1 + 1) = 0 := by linear_combination hsq
  rcases mul_eq_zero.1 hf with h1 | h1
  · left; rw [angleBetween, show cosAngle v0 v1 = 1 by linarith, Real.arccos_one]
  · right; rw [angleBetween, show cosAngle v0 v1 = -1 by linarith, Real.arccos_neg_one]; norm_num

theorem onLine_of_implicit (p v q : Vec2) (hv : v.NonZero) (h : v.x * (q.y - p.y) = v.y * (q.x - p.x)) :
    OnLine p v q := by
  have hp := h; have hs := hv.sq_pos
  refine ⟨(v.x * (q.x - p.x) + v.y * (q.y - p.y)) / (v.x * v.x + v.y * v.y), ?_⟩
  have hne := ne_of_gt hs
  have e1 : (v.x * (q.x - p.x) + v.y * (q.y - p.y)) / (v.x * v.x + v.y * v.y) * v.x = q.x - p.x := by
    rw [div_mul_eq_mul_div, div_eq_iff hne]; linear_combination v.y * h
  have e2 : (v.x * (q.x - p.x) + v.y * (q.y - p.y)) / (v.x * v.x + v.y * v.y) * v.y = q.y - p.y := by
    rw [div_mul_eq_mul_div, div_eq_iff hne]; linear_combination (-v.x) * h
  ext <;> simp only
  · rw [e1]; ring
  · rw [e2]; ring

/-- C41: a reported point lies on both lines. -/
theorem C41_point_on_both (p0 v0 p1 v1 q : Vec2) (h : intersectLineLine p0 v0 p1 v1 = some (some q)) :
    OnLine p0 v0 q ∧ OnLine p1 v1 q := by
  by_cases h0 : v0.NonZero
  swap; · simp [intersectLineLine, normalize_none h0] at h
  by_cases h1 : v1.NonZero
  swap; · rw [intersectLineLine, normalize_none h1] at h; split at h <;> simp_all
  rw [lineLine_eq _ _ _ _ h0 h1] at h
  split at h
  · simp at h
  rename_i hp
  have hd := det_ne_zero v0 v1 h0 h1 hp
  have m0 := magnitude_pos h0
  have m1 := magnitude_pos h1
  simp only [Option.some.injEq] at h
  subst h
  have hdd : -(v0.y / v0.magnitude) * (v1.x / v1.magnitude) - v0.x / v0.magnitude * -(v1.y / v1.magnitude) ≠ 0 := by
    have : -(v0.y / v0.magnitude) * (v1.x / v1.magnitude) - v0.x / v0.magnitude * -(v1.y / v1.magnitude) =
        (v0.x * v1.y - v0.y * v1.x) / (v0.magnitude * v1.magnitude) := by field_simp; ring
    rw [this]
    exact div_ne_zero hd (ne_of_gt (mul_pos m0 m1))
  have hd' : v0.x * v1.y - v0.y * v1.x ≠ 0 := hd
  have hc : cramerPoint p0 ⟨v0.x / v0.magnitude, v0.y / v0.magnitude⟩ p1 ⟨v1.x / v1.magnitude, v1.y / v1.magnitude⟩ =
      ⟨(v0.x * (v1.x * p1.y - v1.y * p1.x) - v1.x * (v0.x * p0.y - v0.y * p0.x)) / -(v0.x * v1.y - v0.y * v1.x),
       (v0.y * (v1.x * p1.y - v1.y * p1.x) - v1.y * (v0.x * p0.y - v0.y * p0.x)) / -(v0.x * v1.y - v0.y * v1.x)⟩ := by
    have n1 : v0.magnitude ≠ 0 := ne_of_gt m0
    have n2 : v1.magnitude ≠ 0 := ne_of_gt m1
    have hnd : -(v0.x * v1.y - v0.y * v1.x) ≠ 0 := neg_ne_zero.2 hd
    ext <;> simp only [cramerPoint] <;> rw [div_eq_div_iff hdd hnd] <;> field_simp <;> ring
  rw [hc]
  have hnd : -(v0.x * v1.y - v0.y * v1.x) ≠ 0 := neg_ne_zero.2 hd
  generalize hA : v0.x * (v1.x * p1.y - v1.y * p1.x) - v1.x * (v0.x * p0.y - v0.y * p0.x) = A
  generalize hB : v0.y * (v1.x * p1.y - v1.y * p1.x) - v1.y * (v0.x * p0.y - v0.y * p0.x) = B
  have hX : A / -(v0.x * v1.y - v0.y * v1.x) * -(v0.x * v1.y - v0.y * v1.x) = A := div_mul_cancel₀ _ hnd
  have hY : B / -(v0.x * v1.y - v0.y * v1.x) * -(v0.x * v1.y - v0.y * v1.x) = B := div_mul_cancel₀ _ hnd
  generalize A / -(v0.x * v1.y - v0.y * v1.x) = X at *
  generalize B / -(v0.x * v1.y - v0.y * v1.x) = Y at *
  constructor
  · apply onLine_of_implicit _ _ _ h0
    apply mul_right_cancel₀ hnd
    simp only
    linear_combination v0.x * (hY - hB) - v0.y * (hX - hA)
  · apply onLine_of_implicit _ _ _ h1
    apply mul_right_cancel₀ hnd
    simp only
    linear_combination v1.x * (hY - hB) - v1.y * (hX - hA)

/-- C41: parallel lines, in the same or opposite direction, are reported as not intersecting. -/
theorem C41_parallel (p0 v0 p1 : Vec2) (k : ℝ) (h0 : v0.NonZero) (hk : k ≠ 0) :
    intersectLineLine p0 v0 p1 ⟨k * v0.x, k * v0.y⟩ = none := by
  have h1 : (Vec2.mk (k * v0.x) (k * v0.y)).NonZero := by
    rcases h0 with h | h
    · exact Or.inl (mul_ne_zero hk h)
    · exact Or.inr (mul_ne_zero hk h)
  rw [lineLine_eq _ _ _ _ h0 h1]
  apply if_pos
  by_contra hc
  exact det_ne_zero _ _ h0 h1 hc (by simp only; ring)

example : intersectLineLine ⟨0, 0⟩ ⟨1, 2⟩ ⟨5, 1⟩ ⟨-3 * 1, -3 * 2⟩ = none :=
  C41_parallel ⟨0, 0⟩ ⟨1, 2⟩ ⟨5, 1⟩ (-3) (Or.inl (by norm_num)) (by norm_num)

/-- C41: lines with non-zero directions are reported as intersecting exactly if the angle between the directions
is neither 0 nor within 0.001 of π. -/
theorem C41_threshold (p0 v0 p1 v1 : Vec2) (h0 : v0.NonZero) (h1 : v1.NonZero) :
    intersectLineLine p0 v0 p1 v1 = none ↔
      (angleBetween v0 v1 = 0 ∨ Real.pi - 0.001 < angleBetween v0 v1) := by
  rw [lineLine_eq _ _ _ _ h0 h1]
  split <;> simp_all

theorem angle_unit (t : ℝ) (h0 : 0 ≤ t) (h1 : t ≤ Real.pi) :
    angleBetween ⟨1, 0⟩ ⟨Real.cos t, Real.sin t⟩ = t := by
  have : (Vec2.mk (Real.cos t) (Real.sin t)).magnitude = 1 := by
    simp only [Vec2.magnitude]; rw [← sq, ← sq, Real.cos_sq_add_sin_sq, Real.sqrt_one]
  have h2 : (Vec2.mk (1 : ℝ) 0).magnitude = 1 := by simp [Vec2.magnitude]
  rw [angleBetween, cosAngle, this, h2]
  simp [Real.arccos_cos h0 h1]

theorem cosVec_nonZero (t : ℝ) : (Vec2.mk (Real.cos t) (Real.sin t)).NonZero := by
  by_contra h
  have hc : Real.cos t = 0 := by by_contra hc; exact h (Or.inl hc)
  have hs : Real.sin t = 0 := by by_contra hc; exact h (Or.inr hc)
  have := Real.cos_sq_add_sin_sq t
  rw [hc, hs] at this
  norm_num at this

/-- C41 (asymmetry of the code): whether nearly parallel lines count as parallel depends on the sign of the
direction vector.  Lines at an angle below 0.001 intersect if the directions agree, and the same two lines do not
intersect if one direction is reversed. -/
theorem C41_orientation_matters (p0 p1 : Vec2) (t : ℝ) (h0 : 0 < t) (h1 : t < 0.001) :
    intersectLineLine p0 ⟨1, 0⟩ p1 ⟨Real.cos t, Real.sin t⟩ ≠ none ∧
    intersectLineLine p0 ⟨1, 0⟩ p1 ⟨-Real.cos t, -Real.sin t⟩ = none := by
  have hpi := Real.pi_gt_three
  have e1 : (Vec2.mk (1 : ℝ) 0).NonZero := Or.inl (by norm_num)
  constructor
  · rw [ne_eq, C41_threshold _ _ _ _ e1 (cosVec_nonZero t), angle_unit t h0.le (by linarith)]
    rintro (h | h) <;> linarith
  · have e2 : (Vec2.mk (-Real.cos t) (-Real.sin t)).NonZero := by
      rcases cosVec_nonZero t with h | h
      · exact Or.inl (neg_ne_zero.2 h)
      · exact Or.inr (neg_ne_zero.2 h)
    rw [C41_threshold _ _ _ _ e1 e2]
    right
    have : angleBetween ⟨1, 0⟩ ⟨-Real.cos t, -Real.sin t⟩ = Real.pi - t := by
      have := angle_unit (Real.pi - t) (by linarith) (by linarith)
      rw [← this]
      simp only [angleBetween, cosAngle, Vec2.magnitude, Real.cos_pi_sub, Real.sin_pi_sub]
      simp
    rw [this]; linarith

/-- C41 (violated by the code): a zero direction, as of a segment whose end points coincide, is reported as an
intersection, at a point that is not a number. -/
theorem C41_zero_direction (p0 v0 p1 v1 : Vec2) (h : ¬ v0.NonZero ∨ ¬ v1.NonZero) :
    intersectLineLine p0 v0 p1 v1 = some none := by
  rcases h with h | h
  · simp [intersectLineLine, normalize_none h]
  · rw [intersectLineLine, normalize_none h]; split <;> simp_all

theorem sub_nonZero {s e : Vec2} (h : s ≠ e) : (e.sub s).NonZero := by
  by_contra hc
  apply h
  have hx : (e.sub s).x = 0 := by by_contra hx; exact hc (Or.inl hx)
  have hy : (e.sub s).y = 0 := by by_contra hy; exact hc (Or.inr hy)
  simp only [Vec2.sub] at hx hy
  ext <;> linarith

theorem sub_self_zero (s : Vec2) : ¬ (s.sub s).NonZero := by
  simp [Vec2.NonZero, Vec2.sub]

theorem unit_nonZero {v : Vec2} (h : v.NonZero) : (Vec2.mk (v.x / v.magnitude) (v.y / v.magnitude)).NonZero := by
  have m := ne_of_gt (magnitude_pos h)
  rcases h with h | h
  · exact Or.inl (div_ne_zero h m)
  · exact Or.inr (div_ne_zero h m)

theorem intersectDir_point {p0 v0 s e q : Vec2} (h : intersectDir p0 v0 s e = some (some q)) :
    OnLine p0 v0 q ∧ OnLine s (e.sub s) q := by
  unfold intersectDir at h
  by_cases hn : (e.sub s).NonZero
  · rw [normalize_some hn] at h
    obtain ⟨h1, t, ht⟩ := C41_point_on_both _ _ _ _ _ h
    refine ⟨h1, t / (e.sub s).magnitude, ?_⟩
    rw [ht]
    ext <;> simp only <;> ring
  · rw [normalize_none hn] at h; simp at h

theorem not_outsideSeg {q s e : Vec2} : ¬ outsideSeg q s e ↔ NearBox s e q := by
  unfold outsideSeg NearBox
  constructor
  · intro h
    simp only [not_or, not_lt] at h
    obtain ⟨h1, h2, h3, h4⟩ := h
    exact ⟨by linarith, by linarith, by linarith, by linarith⟩
  · rintro ⟨h1, h2, h3, h4⟩
    rintro (h | h | h | h) <;> linarith

/-- C41: an intersection reported with a segment lies on the line, on the line of the segment, and within 0.001 of
the bounding box of the segment; likewise for two segments. -/
theorem C41_segment (p0 v0 s e q : Vec2) (h : intersectLineSeg p0 v0 s e = some (some q)) :
    OnLine p0 v0 q ∧ OnLine s (e.sub s) q ∧ NearBox s e q := by
  unfold intersectLineSeg at h
  split at h
  · simp at h
  · simp at h
  · rename_i pt hd
    split at h
    · simp at h
    · rename_i ho
      simp only [Option.some.injEq] at h
      subst h
      obtain ⟨h1, h2⟩ := intersectDir_point hd
      exact ⟨h1, h2, not_outsideSeg.1 ho⟩

theorem C41_segments (s0 e0 s1 e1 q : Vec2) (h : intersectSegSeg s0 e0 s1 e1 = some (some q)) :
    OnLine s0 (e0.sub s0) q ∧ OnLine s1 (e1.sub s1) q ∧ NearBox s0 e0 q ∧ NearBox s1 e1 q := by
  unfold intersectSegSeg at h
  split at h
  · simp at h
  · simp at h
  · rename_i pt hd
    split at h
    · simp at h
    · rename_i ho
      simp only [Option.some.injEq] at h
      subst h
      obtain ⟨h1, h2⟩ := intersectDir_point hd
      simp only [not_or] at ho
      exact ⟨h1, h2, not_outsideSeg.1 ho.1, not_outsideSeg.1 ho.2⟩

theorem onLine_unique {p0 v0 p1 v1 q r : Vec2} (hd : v0.x * v1.y - v0.y * v1.x ≠ 0)
    (hq0 : OnLine p0 v0 q) (hq1 : OnLine p1 v1 q) (hr0 : OnLine p0 v0 r) (hr1 : OnLine p1 v1 r) : q = r := by
  obtain ⟨t, rfl⟩ := hq0
  obtain ⟨t', rfl⟩ := hr0
  obtain ⟨u, hu⟩ := hq1
  obtain ⟨u', hu'⟩ := hr1
  have a1 := congrArg Vec2.x hu
  have a2 := congrArg Vec2.y hu
  have a3 := congrArg Vec2.x hu'
  have a4 := congrArg Vec2.y hu'
  simp only at a1 a2 a3 a4
  have : (t - t') * (v0.x * v1.y - v0.y * v1.x) = 0 := by
    linear_combination v1.y * (a1 - a3) - v1.x * (a2 - a4)
  rcases mul_eq_zero.1 this with h | h
  · have : t = t' := by linarith
    rw [this]
  · exact absurd h hd

theorem angle_unit_right (v0 v1 : Vec2) (h1 : v1.NonZero) :
    angleBetween v0 ⟨v1.x / v1.magnitude, v1.y / v1.magnitude⟩ = angleBetween v0 v1 := by
  have hm := magnitude_pos h1
  have : (Vec2.mk (v1.x / v1.magnitude) (v1.y / v1.magnitude)).magnitude = 1 := by
    rw [Vec2.magnitude]
    simp only
    rw [← sq, ← sq, unit_sq h1, Real.sqrt_one]
  simp only [angleBetween, cosAngle, this]
  congr 1
  rw [mul_one]
  by_cases h0 : v0.magnitude = 0
  · simp [h0]
  · field_simp

theorem intersectDir_some {p0 v0 s e : Vec2} (hc : Crossing v0 s e) :
    ∃ q, intersectDir p0 v0 s e = some (some q) := by
  obtain ⟨h0, hne, ha, hb⟩ := hc
  have hn := sub_nonZero hne
  unfold intersectDir
  rw [normalize_some hn]
  simp only
  rw [lineLine_eq _ _ _ _ h0 (unit_nonZero hn), angle_unit_right _ _ hn, if_neg]
  · exact ⟨_, rfl⟩
  · rintro (h | h)
    · exact ha h
    · linarith

theorem crossing_det {v0 s e : Vec2} (hc : Crossing v0 s e) :
    v0.x * (e.sub s).y - v0.y * (e.sub s).x ≠ 0 := by
  obtain ⟨h0, hne, ha, hb⟩ := hc
  apply det_ne_zero _ _ h0 (sub_nonZero hne)
  rintro (h | h)
  · exact ha h
  · linarith

theorem OnSeg.onLine {s e q : Vec2} (h : OnSeg s e q) : OnLine s (e.sub s) q := by
  obtain ⟨t, _, _, rfl⟩ := h
  exact ⟨t, rfl⟩

theorem between (a b t : ℝ) (h0 : 0 ≤ t) (h1 : t ≤ 1) :
    min a b ≤ a + t * (b - a) ∧ a + t * (b - a) ≤ max a b := by
  rcases le_total a b with h | h
  · rw [min_eq_left h, max_eq_right h]
    constructor <;> nlinarith
  · rw [min_eq_right h, max_eq_left h]
    constructor <;> nlinarith

theorem OnSeg.near {s e q : Vec2} (h : OnSeg s e q) : NearBox s e q := by
  obtain ⟨t, h0, h1, rfl⟩ := h
  obtain ⟨a, b⟩ := between s.x e.x t h0 h1
  obtain ⟨c, d⟩ := between s.y e.y t h0 h1
  exact ⟨by simp only; linarith, by simp only; linarith, by simp only; linarith, by simp only; linarith⟩

/-- C41: a crossing is found.  If a point is on the line and on the segment (and they are not nearly parallel),
exactly this point is reported. -/
theorem C41_segment_complete (p0 v0 s e q : Vec2) (hc : Crossing v0 s e) (h0 : OnLine p0 v0 q)
    (h1 : OnSeg s e q) : intersectLineSeg p0 v0 s e = some (some q) := by
  obtain ⟨r, hr⟩ := intersectDir_some (p0 := p0) hc
  obtain ⟨r0, r1⟩ := intersectDir_point hr
  have : r = q := onLine_unique (crossing_det hc) r0 r1 h0 h1.onLine
  subst this
  unfold intersectLineSeg
  rw [hr]
  simp only
  rw [if_neg (not_outsideSeg.2 h1.near)]

theorem C41_segments_complete (s0 e0 s1 e1 q : Vec2) (hc : Crossing (e0.sub s0) s1 e1) (h0 : OnSeg s0 e0 q)
    (h1 : OnSeg s1 e1 q) : intersectSegSeg s0 e0 s1 e1 = some (some q) := by
  obtain ⟨r, hr⟩ := intersectDir_some (p0 := s0) hc
  obtain ⟨r0, r1⟩ := intersectDir_point hr
  have : r = q := onLine_unique (crossing_det hc) r0 r1 h0.onLine h1.onLine
  subst this
  unfold intersectSegSeg
  rw [hr]
  simp only
  rw [if_neg]
  rintro (h | h)
  · exact not_outsideSeg.2 h0.near h
  · exact not_outsideSeg.2 h1.near h

example : intersectSegSeg ⟨0, 0⟩ ⟨2, 0⟩ ⟨1, -1⟩ ⟨1, 3⟩ = some (some ⟨1, 0⟩) := by
  apply C41_segments_complete
  · have hang : angleBetween ⟨2 - 0, 0 - 0⟩ ⟨1 - 1, 3 - -1⟩ = Real.pi / 2 := by
      rw [angleBetween, cosAngle]; norm_num
    have hpi := Real.pi_gt_three
    refine ⟨Or.inl (by simp [Vec2.sub]), ?_, ?_, ?_⟩
    · intro h; have := congrArg Vec2.y h; norm_num at this
    · simp only [Vec2.sub]; rw [hang]; linarith
    · simp only [Vec2.sub]; rw [hang]; linarith
  · exact ⟨1 / 2, by norm_num, by norm_num, by ext <;> norm_num⟩
  · exact ⟨1 / 4, by norm_num, by norm_num, by ext <;> norm_num⟩

/-- C41: intersecting a polygon with a line (or a segment) reports, for each edge in order, the intersection with
that edge; the edges are the consecutive pairs of vertices and the pair of the last and the first. -/
theorem C41_polygon (vs : List Vec2) (p v e : Vec2) :
    intersectPolyLine vs p v = ((List.range vs.length).filterMap fun i =>
      (vs[i]?).bind fun a => (vs[(i + 1) % vs.length]?).bind fun b => intersectLineSeg p v a b) ∧
    intersectPolySeg vs p e = ((List.range vs.length).filterMap fun i =>
      (vs[i]?).bind fun a => (vs[(i + 1) % vs.length]?).bind fun b => intersectSegSeg a b p e) := by
  have key : ∀ f : Vec2 × Vec2 → Option (Option Vec2), (polyEdges vs).filterMap f =
      (List.range vs.length).filterMap fun i =>
        (vs[i]?).bind fun a => (vs[(i + 1) % vs.length]?).bind fun b => f (a, b) := by
    intro f
    have : polyEdges vs = (List.range vs.length).filterMap fun i =>
        (vs[i]?).bind fun a => (vs[(i + 1) % vs.length]?).bind fun b => some (a, b) := by
      rw [polyEdges]
      have h2 : ((List.range vs.length).filterMap fun i =>
          (vs[i]?).bind fun a => (vs[(i + 1) % vs.length]?).bind fun b => some (a, b)) =
          (List.range vs.length).pmap (fun i (h : i < vs.length) =>
            (vs[i], vs[(i + 1) % vs.length]'(Nat.mod_lt _ (by omega)))) (fun i h => List.mem_range.1 h) := by
        have : ∀ (l : List Nat) (hl : ∀ i ∈ l, i < vs.length), (l.filterMap fun i =>
          (vs[i]?).bind fun a => (vs[(i + 1) % vs.length]?).bind fun b => some (a, b)) =
          l.pmap (fun i (h : i < vs.length) =>
            (vs[i], vs[(i + 1) % vs.length]'(Nat.mod_lt _ (by omega)))) hl := by
          intro l hl
          induction l with
          | nil => rfl
          | cons i l ih =>
            have hi : i < vs.length := hl i (by simp)
            have hm : (i + 1) % vs.length < vs.length := Nat.mod_lt _ (by omega)
            rw [List.filterMap_cons]
            simp only [List.getElem?_eq_getElem hi, List.getElem?_eq_getElem hm, Option.bind_some, List.pmap_cons]
            rw [ih (fun j hj => hl j (by simp [hj]))]
        exact this _ _
      rw [h2]
      apply List.ext_getElem
      · simp
      · intro i h3 h4
        simp [List.getElem_rotate]
    rw [this, List.filterMap_filterMap]
    congr 1
    funext i
    cases vs[i]? with
    | none => rfl
    | some a => cases vs[(i + 1) % vs.length]? <;> rfl
  exact ⟨key _, key _⟩

end
end Clip
