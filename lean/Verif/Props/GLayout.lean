import Verif.Spec.Geometry
import Mathlib.Tactic.Linarith
import Mathlib.Tactic.Ring
import Mathlib.Tactic.NormNum
/-!
# C31: margins, alignment and rotated boxes
-/
namespace Clip
noncomputable section

/-- C31 (part): with non-negative margins that fit into the parent box, the content box is exactly the parent box
minus the margins, and so lies inside it. -/
theorem C31_margin_inside_partial (p : Rect) (t r b l : ℝ) (ht : 0 ≤ t) (hr : 0 ≤ r) (hb : 0 ≤ b) (hl : 0 ≤ l)
    (hw : l + r ≤ p.w) (hh : t + b ≤ p.h) :
    let c := layoutMarginBox p t r b l
    c.x = p.x + l ∧ c.y = p.y + b ∧ c.x + c.w = p.x + p.w - r ∧ c.y + c.h = p.y + p.h - t ∧
    ∀ q, c.Has q → p.Has q := by
  have e1 : max (p.w - (l + r)) 0 = p.w - (l + r) := max_eq_left (by linarith)
  have e2 : max (p.h - (t + b)) 0 = p.h - (t + b) := max_eq_left (by linarith)
  refine ⟨rfl, rfl, ?_, ?_, ?_⟩
  · simp only [layoutMarginBox, e1]; ring
  · simp only [layoutMarginBox, e2]; ring
  · rintro q ⟨h1, h2, h3, h4⟩
    simp only [layoutMarginBox, e1, e2] at h1 h2 h3 h4
    exact ⟨by linarith, by linarith, by linarith, by linarith⟩

example : let c := layoutMarginBox ⟨10, 20, 300, 200⟩ 1 2 3 4
    c.x = 14 ∧ c.w = 294 := by
  have := C31_margin_inside_partial ⟨10, 20, 300, 200⟩ 1 2 3 4 (by norm_num) (by norm_num) (by norm_num)
    (by norm_num) (by norm_num) (by norm_num)
  refine ⟨by rw [this.1]; norm_num, ?_⟩
  norm_num [layoutMarginBox]

/-- C31: the content box never has a negative size, whatever the margins. -/
theorem C31_margin_size (p : Rect) (t r b l : ℝ) :
    0 ≤ (layoutMarginBox p t r b l).w ∧ 0 ≤ (layoutMarginBox p t r b l).h :=
  ⟨le_max_right _ _, le_max_right _ _⟩

/-- C31 (violated by the code): a left margin wider than the parent box, or a negative one, moves the content box
outside the parent, to the right or to the left of it. -/
theorem C31_margin_outside (p : Rect) (t r b l : ℝ) (h : p.w < l ∨ l < 0) :
    ¬ ∀ q, (layoutMarginBox p t r b l).Has q → p.Has q := by
  intro hh
  have hc : (layoutMarginBox p t r b l).Has ⟨p.x + l, p.y + b⟩ :=
    ⟨le_refl _, by have := (C31_margin_size p t r b l).1; simp only [layoutMarginBox] at *; linarith,
      le_refl _, by have := (C31_margin_size p t r b l).2; simp only [layoutMarginBox] at *; linarith⟩
  obtain ⟨h1, h2, -, -⟩ := hh _ hc
  simp only at h1 h2
  rcases h with h | h <;> linarith

example : ¬ ∀ q, (layoutMarginBox ⟨0, 0, 100, 100⟩ 0 0 0 150).Has q → Rect.Has ⟨0, 0, 100, 100⟩ q :=
  C31_margin_outside _ _ _ _ _ (Or.inl (by norm_num))

/-- C31: a box moved by the offset that `layout_align` returns has the requested edge or centre line exactly at the
target point, in both directions. -/
theorem C31_align (b : Rect) (t : Vec2) (ax : HAlign) (ay : VAlign) :
    let o := layoutAlign b t ax ay
    let m : Rect := ⟨b.x + o.x, b.y + o.y, b.w, b.h⟩
    (ax = .left → m.x = t.x) ∧ (ax = .right → m.x + m.w = t.x) ∧ (ax = .center → m.x + m.w / 2 = t.x) ∧
    (ay = .bottom → m.y = t.y) ∧ (ay = .top → m.y + m.h = t.y) ∧ (ay = .center → m.y + m.h / 2 = t.y) := by
  refine ⟨?_, ?_, ?_, ?_, ?_, ?_⟩ <;> rintro rfl <;> simp only [layoutAlign, layoutCenter] <;> ring

/-- The point `q` of the plane turned `a` degrees clockwise about the centre of the box `b` (multiplication by
`exp (-i a π / 180)` about the centre). -/
def turnAbout (b : Rect) (a : ℝ) (q : Vec2) : Vec2 :=
  let z := Complex.exp (-(a * Real.pi / 180 : ℝ) * Complex.I) *
    (⟨q.x - (b.x + b.w / 2), q.y - (b.y + b.h / 2)⟩ : ℂ)
  ⟨b.x + b.w / 2 + z.re, b.y + b.h / 2 + z.im⟩

theorem turnAbout_eq (b : Rect) (a : ℝ) (q : Vec2) :
    let i := Real.sin (-a * Real.pi / 180)
    let c := Real.cos (-a * Real.pi / 180)
    let x := q.x - (b.x + b.w / 2)
    let y := q.y - (b.y + b.h / 2)
    turnAbout b a q = ⟨b.x + b.w / 2 + (c * x - i * y), b.y + b.h / 2 + (c * y + i * x)⟩ := by
  intro i c x y
  have e : -a * Real.pi / 180 = -(a * Real.pi / 180) := by ring
  simp only [turnAbout, i, c, x, y]
  rw [show (-(a * Real.pi / 180 : ℝ) * Complex.I : ℂ) = ((-a * Real.pi / 180 : ℝ) : ℂ) * Complex.I by
    push_cast; ring]
  rw [Complex.exp_mul_I, ← Complex.ofReal_cos, ← Complex.ofReal_sin]
  generalize -a * Real.pi / 180 = θ
  ext
  · simp [-Complex.ofReal_cos, -Complex.ofReal_sin]
  · simp [-Complex.ofReal_cos, -Complex.ofReal_sin]

theorem extent (A B : ℝ) :
    max (max (max A B) (-A)) (-B) - min (min (min A B) (-A)) (-B) = 2 * max |A| |B| := by
  rcases le_total 0 A with hA | hA <;> rcases le_total 0 B with hB | hB <;>
    simp only [abs_of_nonneg, abs_of_nonpos, hA, hB]
  all_goals
    rcases le_total A B with h | h <;> rcases le_total A (-B) with h' | h' <;>
      simp only [max_def, min_def] <;> split_ifs <;> linarith

theorem C31_rotate_eq (b : Rect) (a : ℝ) :
    let i := Real.sin (-a * Real.pi / 180)
    let q := Real.cos (-a * Real.pi / 180)
    let rx := max |q * (b.w / 2) - i * (b.h / 2)| |q * (b.w / 2) + i * (b.h / 2)|
    let ry := max |q * (b.h / 2) + i * (b.w / 2)| |-(q * (b.h / 2)) + i * (b.w / 2)|
    boxRotateBounds b a = ⟨b.x + b.w / 2 - rx, b.y + b.h / 2 - ry, 2 * rx, 2 * ry⟩ := by
  intro i q rx ry
  have hx := extent (q * (b.w / 2) - i * (b.h / 2)) (q * (b.w / 2) + i * (b.h / 2))
  have hy := extent (q * (b.h / 2) + i * (b.w / 2)) (-(q * (b.h / 2)) + i * (b.w / 2))
  have x1 : q * (b.w * 0.5) - i * (b.h * 0.5) = q * (b.w / 2) - i * (b.h / 2) := by ring
  have x2 : q * (b.w * 0.5) - i * (b.h * -0.5) = q * (b.w / 2) + i * (b.h / 2) := by ring
  have x3 : q * (b.w * -0.5) - i * (b.h * -0.5) = -(q * (b.w / 2) - i * (b.h / 2)) := by ring
  have x4 : q * (b.w * -0.5) - i * (b.h * 0.5) = -(q * (b.w / 2) + i * (b.h / 2)) := by ring
  have y1 : q * (b.h * 0.5) + i * (b.w * 0.5) = q * (b.h / 2) + i * (b.w / 2) := by ring
  have y2 : q * (b.h * -0.5) + i * (b.w * 0.5) = -(q * (b.h / 2)) + i * (b.w / 2) := by ring
  have y3 : q * (b.h * -0.5) + i * (b.w * -0.5) = -(q * (b.h / 2) + i * (b.w / 2)) := by ring
  have y4 : q * (b.h * 0.5) + i * (b.w * -0.5) = -(-(q * (b.h / 2)) + i * (b.w / 2)) := by ring
  simp only [boxRotateBounds]
  rw [x1, x2, x3, x4, y1, y2, y3, y4, hx, hy]
  ext <;> simp only [rx, ry] <;> ring

/-- C31: the bounds of a rotated box contain every point of the box turned about its centre, and no smaller box
does: any box that contains the four turned corners contains the bounds. -/
theorem C31_rotate_bounds (b : Rect) (a : ℝ) (hw : 0 ≤ b.w) (hh : 0 ≤ b.h) :
    (∀ q, b.Has q → (boxRotateBounds b a).Has (turnAbout b a q)) ∧
    (∀ r : Rect, (∀ q, b.Has q → r.Has (turnAbout b a q)) → ∀ q, (boxRotateBounds b a).Has q → r.Has q) := by
  rw [C31_rotate_eq]
  simp only [Rect.Has, turnAbout_eq]
  generalize Real.sin (-a * Real.pi / 180) = i
  generalize Real.cos (-a * Real.pi / 180) = c
  obtain ⟨bx, by', w, h⟩ := b
  simp only at *
  constructor
  · rintro ⟨x, y⟩ ⟨h1, h2, h3, h4⟩
    simp only at *
    obtain ⟨u, rfl⟩ : ∃ u, x = bx + w / 2 + u := ⟨x - (bx + w / 2), by ring⟩
    obtain ⟨v, rfl⟩ : ∃ v, y = by' + h / 2 + v := ⟨y - (by' + h / 2), by ring⟩
    have hu : |u| ≤ w / 2 := abs_le.2 ⟨by linarith, by linarith⟩
    have hv : |v| ≤ h / 2 := abs_le.2 ⟨by linarith, by linarith⟩
    have bound : ∀ c i w h u v : ℝ, 0 ≤ w → 0 ≤ h → |u| ≤ w → |v| ≤ h →
        |c * u - i * v| ≤ max |c * w - i * h| |c * w + i * h| := by
      intro c i w h u v hw hh hu hv
      have t : |c * u - i * v| ≤ |c| * w + |i| * h := by
        calc |c * u - i * v| ≤ |c * u| + |i * v| := abs_sub _ _
          _ = |c| * |u| + |i| * |v| := by rw [abs_mul, abs_mul]
          _ ≤ _ := add_le_add (mul_le_mul_of_nonneg_left hu (abs_nonneg _))
            (mul_le_mul_of_nonneg_left hv (abs_nonneg _))
      refine t.trans ?_
      rcases le_total 0 c with hc | hc <;> rcases le_total 0 i with hi | hi
      · rw [abs_of_nonneg hc, abs_of_nonneg hi]; exact (le_abs_self _).trans (le_max_right _ _)
      · rw [abs_of_nonneg hc, abs_of_nonpos hi]
        refine le_trans (le_of_eq ?_) ((le_abs_self _).trans (le_max_left _ _)); ring
      · rw [abs_of_nonpos hc, abs_of_nonneg hi]
        refine le_trans (le_of_eq ?_) ((neg_le_abs _).trans (le_max_left _ _)); ring
      · rw [abs_of_nonpos hc, abs_of_nonpos hi]
        refine le_trans (le_of_eq ?_) ((neg_le_abs _).trans (le_max_right _ _)); ring
    have b1 := bound c i (w / 2) (h / 2) u v (by linarith) (by linarith) hu hv
    have b2 := bound c (-i) (h / 2) (w / 2) v u (by linarith) (by linarith) hv hu
    have e1 : max |c * (h / 2) - -i * (w / 2)| |c * (h / 2) + -i * (w / 2)| =
        max |c * (h / 2) + i * (w / 2)| |-(c * (h / 2)) + i * (w / 2)| := by
      congr 1
      · congr 1; ring
      · rw [← abs_neg]; congr 1; ring
    rw [e1] at b2
    obtain ⟨b3, b4⟩ := abs_le.1 b1
    obtain ⟨b5, b6⟩ := abs_le.1 b2
    refine ⟨?_, ?_, ?_, ?_⟩ <;> ring_nf at * <;> linarith
  · rintro ⟨rx, ry, rw', rh⟩ hr ⟨x, y⟩ ⟨h1, h2, h3, h4⟩
    simp only at *
    have c1 := hr ⟨bx, by'⟩ ⟨by simp, by simpa using hw, by simp, by simpa using hh⟩
    have c2 := hr ⟨bx + w, by'⟩ ⟨by simpa using hw, by simp, by simp, by simpa using hh⟩
    have c3 := hr ⟨bx, by' + h⟩ ⟨by simp, by simpa using hw, by simpa using hh, by simp⟩
    have c4 := hr ⟨bx + w, by' + h⟩ ⟨by simpa using hw, by simp, by simpa using hh, by simp⟩
    simp only at c1 c2 c3 c4
    have m1 : max |c * (w / 2) - i * (h / 2)| |c * (w / 2) + i * (h / 2)| ≤ rx + rw' - (bx + w / 2) := by
      apply max_le <;> apply abs_le.2 <;> constructor <;> linarith
    have m2 : max |c * (w / 2) - i * (h / 2)| |c * (w / 2) + i * (h / 2)| ≤ bx + w / 2 - rx := by
      apply max_le <;> apply abs_le.2 <;> constructor <;> linarith
    have m3 : max |c * (h / 2) + i * (w / 2)| |-(c * (h / 2)) + i * (w / 2)| ≤ ry + rh - (by' + h / 2) := by
      apply max_le <;> apply abs_le.2 <;> constructor <;> linarith
    have m4 : max |c * (h / 2) + i * (w / 2)| |-(c * (h / 2)) + i * (w / 2)| ≤ by' + h / 2 - ry := by
      apply max_le <;> apply abs_le.2 <;> constructor <;> linarith
    exact ⟨by linarith, by linarith, by linarith, by linarith⟩

example : boxRotateBounds ⟨0, 0, 40, 20⟩ 90 = ⟨10, -10, 20, 40⟩ := by
  rw [C31_rotate_eq]
  have e : -(90 : ℝ) * Real.pi / 180 = -(Real.pi / 2) := by ring
  simp only [e, Real.sin_neg, Real.cos_neg, Real.sin_pi_div_two, Real.cos_pi_div_two]
  norm_num

end
end Clip
