import Verif.Model.Metric
import Verif.Props.Format
import Mathlib.Tactic.Linarith
import Mathlib.Tactic.Positivity
import Mathlib.Tactic.NormNum
import Mathlib.Tactic.FieldSimp
import Mathlib.Tactic.Ring
/-!
# C111: numbers with metric prefixes
-/
set_option linter.unusedSimpArgs false
namespace Clip
noncomputable section
open Decimal

namespace Metric

/-- The letters after numbers, and what they stand for. -/
def prefixes : List (Str × ℝ) := [(['p'], 1 / 10 ^ 12), (['n'], 1 / 10 ^ 9), (['μ'], 1 / 10 ^ 6), (['m'], 1 / 10 ^ 3), ([], 1),
  (['K'], 10 ^ 3), (['M'], 10 ^ 6), (['G'], 10 ^ 9), (['T'], 10 ^ 12)]

/-- The text shows the number `v * unit`: the decimal number `v` and the letter for the unit. -/
def Shows (s : Str) (v unit : ℝ) : Prop :=
  ∃ digits letter p, s = digits ++ letter ∧ (letter, unit) ∈ prefixes ∧ FixedDenotes p digits v

theorem shows_fixed (p : Nat) (x u : ℝ) (letter : Str) (hm : (letter, u) ∈ prefixes) (hu : 0 < u) (y : ℝ) (hx : y * u = x) :
    ∃ v, |v - y| ≤ 1 / 2 / 10 ^ p ∧ Shows (fixedText p y ++ letter) v u ∧ |v * u - x| ≤ u / 2 / 10 ^ p := by
  obtain ⟨v, h1, h2⟩ := fixedText_denotes p y
  refine ⟨v, h2, ⟨_, _, p, rfl, hm, h1⟩, ?_⟩
  rw [← hx, ← sub_mul, abs_mul, abs_of_pos hu]
  calc |v - y| * u ≤ 1 / 2 / 10 ^ p * u := mul_le_mul_of_nonneg_right h2 hu.le
    _ = u / 2 / 10 ^ p := by ring

theorem small {p : Nat} {v y : ℝ} (h : |v - y| ≤ 1 / 2 / 10 ^ p) (hp : (1 : ℝ) / 2 / 10 ^ p ≤ 1 / 20) (hy : |y| < 1000) :
    |v| < 1000 + 1 / 10 := by
  have := abs_sub_abs_le_abs_sub v y
  linarith

end Metric
open Metric

/-- C111: a number of at least a million millionth is shown with an error of at most five percent, by a decimal number and
the letter that stands for the power of ten.  The decimal number is at most a thousand, unless it is a thousand million
million or more, for which there is no letter. -/
theorem C111_metric (x : ℝ) (hx : 1 / 10 ^ 12 ≤ |x|) :
    ∃ v unit, Shows (formatNumberMetric x) v unit ∧ |v * unit - x| ≤ |x| / 20 ∧ (|x| < 10 ^ 15 → |v| < 1000 + 1 / 10) := by
  have hx0 : ¬ |x| = 0 := by
    intro e; rw [e] at hx; norm_num at hx
  unfold formatNumberMetric
  simp only
  rw [if_neg hx0]
  split_ifs with h1 h2 h3 h4 h5 h6 h7 h8 h9
  · obtain ⟨v, hv, hs, he⟩ := shows_fixed 1 x (1 / 10 ^ 12) ['p'] (by simp [prefixes]) (by norm_num) (x * 1000000000000) (by ring)
    exact ⟨_, _, hs, he.trans (by norm_num at hx ⊢; linarith), fun hb => small hv (by norm_num) (by simp only [abs_mul, abs_div]; norm_num at hb ⊢; linarith)⟩
  · obtain ⟨v, hv, hs, he⟩ := shows_fixed 1 x (1 / 10 ^ 9) ['n'] (by simp [prefixes]) (by norm_num) (x * 1000000000) (by ring)
    exact ⟨_, _, hs, he.trans (by norm_num at h1 ⊢; linarith), fun hb => small hv (by norm_num) (by simp only [abs_mul, abs_div]; norm_num at hb ⊢; linarith)⟩
  · obtain ⟨v, hv, hs, he⟩ := shows_fixed 1 x (1 / 10 ^ 6) ['μ'] (by simp [prefixes]) (by norm_num) (x * 1000000) (by ring)
    exact ⟨_, _, hs, he.trans (by norm_num at h2 ⊢; linarith), fun hb => small hv (by norm_num) (by simp only [abs_mul, abs_div]; norm_num at hb ⊢; linarith)⟩
  · obtain ⟨v, hv, hs, he⟩ := shows_fixed 1 x (1 / 10 ^ 3) ['m'] (by simp [prefixes]) (by norm_num) (x * 1000) (by ring)
    exact ⟨_, _, hs, he.trans (by norm_num at h3 ⊢; linarith), fun hb => small hv (by norm_num) (by simp only [abs_mul, abs_div]; norm_num at hb ⊢; linarith)⟩
  · obtain ⟨v, hv, hs, he⟩ := shows_fixed 2 x 1 [] (by simp [prefixes]) (by norm_num) x (by ring)
    rw [List.append_nil] at hs
    exact ⟨_, _, hs, he.trans (by norm_num at h4 ⊢; linarith), fun hb => small hv (by norm_num) (by linarith)⟩
  · obtain ⟨v, hv, hs, he⟩ := shows_fixed 1 x 1 [] (by simp [prefixes]) (by norm_num) x (by ring)
    rw [List.append_nil] at hs
    exact ⟨_, _, hs, he.trans (by norm_num at h5 ⊢; linarith), fun hb => small hv (by norm_num) (by linarith)⟩
  · obtain ⟨v, hv, hs, he⟩ := shows_fixed 1 x (10 ^ 3) ['K'] (by simp [prefixes]) (by norm_num) (x / 1000) (by ring)
    exact ⟨_, _, hs, he.trans (by norm_num at h6 ⊢; linarith), fun hb => small hv (by norm_num) (by simp only [abs_mul, abs_div]; norm_num at hb ⊢; linarith)⟩
  · obtain ⟨v, hv, hs, he⟩ := shows_fixed 1 x (10 ^ 6) ['M'] (by simp [prefixes]) (by norm_num) (x / 1000000) (by ring)
    exact ⟨_, _, hs, he.trans (by norm_num at h7 ⊢; linarith), fun hb => small hv (by norm_num) (by simp only [abs_mul, abs_div]; norm_num at hb ⊢; linarith)⟩
  · obtain ⟨v, hv, hs, he⟩ := shows_fixed 1 x (10 ^ 9) ['G'] (by simp [prefixes]) (by norm_num) (x / 1000000000) (by ring)
    exact ⟨_, _, hs, he.trans (by norm_num at h8 ⊢; linarith), fun hb => small hv (by norm_num) (by simp only [abs_mul, abs_div]; norm_num at hb ⊢; linarith)⟩
  · obtain ⟨v, hv, hs, he⟩ := shows_fixed 1 x (10 ^ 12) ['T'] (by simp [prefixes]) (by norm_num) (x / 1000000000000) (by ring)
    exact ⟨_, _, hs, he.trans (by norm_num at h9 ⊢; linarith), fun hb => small hv (by norm_num) (by simp only [abs_mul, abs_div]; norm_num at hb ⊢; linarith)⟩

/-- C111: zero is shown as such. -/
theorem C111_zero : formatNumberMetric 0 = "0".toList := by
  unfold formatNumberMetric
  simp only [abs_zero, if_true]
  rfl

/-- C111: numbers from a tenth to a thousand are shown without a letter, with an error of at most a twentieth; those below ten
with two decimals. -/
theorem C111_plain (x : ℝ) (h : 1 / 10 ≤ |x|) (hx : |x| < 1000) :
    ∃ v, Shows (formatNumberMetric x) v 1 ∧ |v - x| ≤ 1 / 20 ∧ (|x| < 10 → |v - x| ≤ 1 / 200) := by
  have hx0 : ¬ |x| = 0 := by
    intro e; rw [e] at h; norm_num at h
  unfold formatNumberMetric
  simp only
  rw [if_neg hx0, if_neg (by norm_num at h ⊢; linarith), if_neg (by norm_num at h ⊢; linarith),
    if_neg (by norm_num at h ⊢; linarith), if_neg (by linarith)]
  split_ifs with h5
  · obtain ⟨v, hv, hs, he⟩ := shows_fixed 2 x 1 [] (by simp [prefixes]) (by norm_num) x (by ring)
    rw [List.append_nil] at hs
    exact ⟨_, hs, hv.trans (by norm_num), fun _ => hv.trans (by norm_num)⟩
  · obtain ⟨v, hv, hs, he⟩ := shows_fixed 1 x 1 [] (by simp [prefixes]) (by norm_num) x (by ring)
    rw [List.append_nil] at hs
    exact ⟨_, hs, hv.trans (by norm_num), fun h => absurd h h5⟩

end
end Clip
