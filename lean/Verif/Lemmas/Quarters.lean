import Verif.Lemmas.Scale
import Mathlib.Analysis.Complex.ExponentialBounds
import Mathlib.Tactic.Linarith
import Mathlib.Tactic.NormNum
/-!
# A coarse rounding, for examples

Numbers rounded to quarters: with this rounding `log(8) / log(2)` is `2.75`, as `log(1000) / log(10)` is
`2.9999999999999996` with doubles.
-/
namespace Clip

/-- Numbers rounded to quarters. -/
noncomputable def quarters : Arith := ⟨fun x => ⌊4 * x + 1 / 2⌋ / 4, id⟩

theorem quarters_eq {x : ℝ} (z : ℤ) (h1 : (z : ℝ) ≤ 4 * x + 1 / 2) (h2 : 4 * x + 1 / 2 < z + 1) : quarters.d x = z / 4 := by
  have : ⌊4 * x + 1 / 2⌋ = z := Int.floor_eq_iff.2 ⟨h1, h2⟩
  simp only [quarters, this]

theorem quarters_good : quarters.Good where
  mono := by
    intro x y h
    have : ⌊4 * x + 1 / 2⌋ ≤ ⌊4 * y + 1 / 2⌋ := Int.floor_le_floor (by linarith)
    have : (⌊4 * x + 1 / 2⌋ : ℝ) ≤ ⌊4 * y + 1 / 2⌋ := by exact_mod_cast this
    show (⌊4 * x + 1 / 2⌋ : ℝ) / 4 ≤ ⌊4 * y + 1 / 2⌋ / 4
    linarith
  zero := by rw [quarters_eq 0] <;> norm_num
  one := by rw [quarters_eq 4] <;> norm_num
  idem := by
    intro x
    rw [quarters_eq ⌊4 * x + 1 / 2⌋] <;> simp only [quarters] <;> linarith

theorem quarters_log_2 : quarters.d (Real.log 2) = 3 / 4 := by
  have h1 := Real.log_two_gt_d9
  have h2 := Real.log_two_lt_d9
  rw [quarters_eq 3 (by push_cast; linarith) (by push_cast; linarith)]
  norm_num

theorem quarters_log_8 : quarters.d (Real.log 8) = 2 := by
  have h1 := Real.log_two_gt_d9
  have h2 := Real.log_two_lt_d9
  have e : Real.log 8 = 3 * Real.log 2 := by
    rw [show (8 : ℝ) = 2 ^ 3 by norm_num, Real.log_pow]; norm_num
  rw [e, quarters_eq 8 (by push_cast; linarith) (by push_cast; linarith)]
  norm_num

theorem quarters_exponent : quarters.d (quarters.d (Real.log 8) / quarters.d (Real.log 2)) = 11 / 4 := by
  rw [quarters_log_8, quarters_log_2]
  rw [quarters_eq 11 (by norm_num) (by norm_num)]
  norm_num

end Clip
