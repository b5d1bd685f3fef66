import Verif.Model.Format
import Verif.Spec.Decimal
import Verif.Lemmas.Scale
import Verif.Lemmas.Quarters
import Mathlib.Data.Nat.Digits.Lemmas
import Mathlib.Tactic.Linarith
import Mathlib.Tactic.FieldSimp
import Mathlib.Tactic.Ring
/-!
# C43, C69, C70: label formats
-/
namespace Clip
noncomputable section
open Decimal

/-! ## Decimal texts -/

theorem value_append (a : List Nat) (d : Nat) : value (a ++ [d]) = 10 * value a + d := by
  simp [value, List.foldl_append]

theorem value_reverse_digits (l : List Nat) : value l.reverse = Nat.ofDigits 10 l := by
  induction l with
  | nil => rfl
  | cons d l ih => rw [List.reverse_cons, value_append, ih, Nat.ofDigits_cons]; ring

theorem natText_denotes (n : Nat) : NatDenotes (natText n) n := by
  unfold natText
  split
  · next h => subst h; exact ⟨[0], by simp, by simp, by simp, rfl, rfl⟩
  · next h =>
    refine ⟨(Nat.digits 10 n).reverse, ?_, ?_, ?_, ?_, ?_⟩
    · simpa [Nat.digits_ne_nil_iff_ne_zero] using h
    · intro d hd
      exact Nat.digits_lt_base (by norm_num) (List.mem_reverse.1 hd)
    · intro hh
      rw [List.head?_reverse] at hh
      have h1 := Nat.getLast_digit_ne_zero 10 h
      have h2 : Nat.digits 10 n ≠ [] := Nat.digits_ne_nil_iff_ne_zero.2 h
      rw [List.getLast?_eq_some_getLast h2] at hh
      exact absurd (Option.some.inj hh) h1
    · rw [List.map_reverse]; rfl
    · rw [value_reverse_digits, Nat.ofDigits_digits]

theorem intText_denotes (z : ℤ) : IntDenotes (intText z) z := by
  unfold intText IntDenotes
  split
  · next h =>
    right
    refine ⟨h, _, rfl, ?_⟩
    have : (-z).toNat = z.natAbs := by omega
    rw [this]; exact natText_denotes _
  · next h =>
    left
    have : z.toNat = z.natAbs := by omega
    rw [this]
    exact ⟨by omega, natText_denotes _⟩

theorem padDigits_denotes (p n : Nat) :
    ∃ ds : List Nat, (∀ d ∈ ds, d < 10) ∧ ds.length = p ∧ padDigits p n = ds.map digit ∧ value ds = n % 10 ^ p := by
  induction p generalizing n with
  | zero => exact ⟨[], by simp, rfl, rfl, by simp [value, Nat.mod_one]⟩
  | succ p ih =>
    obtain ⟨ds, h1, h2, h3, h4⟩ := ih (n / 10)
    refine ⟨ds ++ [n % 10], ?_, by simp [h2], ?_, ?_⟩
    · intro d hd
      rcases List.mem_append.1 hd with h | h
      · exact h1 d h
      · rw [List.mem_singleton.1 h]; exact Nat.mod_lt _ (by norm_num)
    · simp [padDigits, h3, digit]
    · rw [value_append, h4, pow_succ, mul_comm (10 ^ p) 10, Nat.mod_mul]; ring

theorem roundEven_near (x : ℝ) : |(roundEven x : ℝ) - x| ≤ 1 / 2 := by
  have h1 := Int.floor_le x
  have h2 := Int.lt_floor_add_one x
  unfold roundEven
  repeat' split
  all_goals
    push_cast
    rw [abs_le]
    constructor <;> linarith

theorem roundEven_nonneg {x : ℝ} (h : 0 ≤ x) : 0 ≤ roundEven x := by
  have := Int.floor_nonneg.2 h
  unfold roundEven
  repeat' split
  all_goals omega

/-- The text written for a number with `p` decimals denotes a number at most half a unit of the last place away. -/
theorem fixedText_denotes (p : Nat) (x : ℝ) :
    ∃ v, FixedDenotes p (fixedText p x) v ∧ |v - x| ≤ 1 / 2 / 10 ^ p := by
  set m : Nat := (roundEven (|x| * 10 ^ p)).toNat with hm
  have hx : 0 ≤ |x| * 10 ^ p := by positivity
  have hmz : ((m : ℤ) : ℝ) = (roundEven (|x| * 10 ^ p) : ℝ) := by
    rw [hm, Int.toNat_of_nonneg (roundEven_nonneg hx)]
  have hnear := roundEven_near (|x| * 10 ^ p)
  rw [← hmz] at hnear
  push_cast at hnear
  obtain ⟨ds, h1, h2, h3, h4⟩ := padDigits_denotes p m
  have hpos : (0 : ℝ) < 10 ^ p := by positivity
  have hsplit : ((m / 10 ^ p : ℕ) : ℝ) + ((m % 10 ^ p : ℕ) : ℝ) / 10 ^ p = (m : ℝ) / 10 ^ p := by
    have := Nat.div_add_mod m (10 ^ p)
    rw [eq_div_iff hpos.ne', add_mul, div_mul_cancel₀ _ hpos.ne']
    exact_mod_cast by rw [mul_comm]; exact this
  refine ⟨(if decide (x < 0) then -1 else 1) * ((m : ℝ) / 10 ^ p),
    ⟨decide (x < 0), natText (m / 10 ^ p), m / 10 ^ p, ds, natText_denotes _, h1, h2, ?_, ?_⟩, ?_⟩
  · unfold fixedText
    simp only [← hm, h3, decide_eq_true_eq]
  · rw [h4, hsplit]
  · have hd : abs ((m : ℝ) / 10 ^ p - |x|) ≤ 1 / 2 / 10 ^ p := by
      have e : (m : ℝ) / 10 ^ p - |x| = ((m : ℝ) - |x| * 10 ^ p) / 10 ^ p := by field_simp
      rw [e, abs_div, abs_of_pos hpos]
      exact div_le_div_of_nonneg_right hnear hpos.le
    by_cases h : x < 0
    · simp only [h, decide_true, if_true]
      rw [abs_of_neg h] at hd
      have e : -1 * ((m : ℝ) / 10 ^ p) - x = -((m : ℝ) / 10 ^ p - -x) := by ring
      rw [e, abs_neg]; exact hd
    · simp only [h, decide_false]
      rw [abs_of_nonneg (not_lt.1 h)] at hd
      simpa using hd

theorem digit_raised : ∀ d, d < 10 → (digit d, superChar (digit d)) ∈ raised := by decide

theorem raised_of_nat {s : Str} {n : Nat} (h : NatDenotes s n) :
    List.Forall₂ (fun c d => (c, d) ∈ raised) s (s.map superChar) := by
  obtain ⟨ds, -, h2, -, rfl, -⟩ := h
  clear * - h2
  induction ds with
  | nil => exact .nil
  | cons d ds ih =>
    exact .cons (digit_raised d (h2 d (by simp))) (ih fun x hx => h2 x (by simp [hx]))

theorem formatSuperscript_denotes (z : ℤ) : RaisedDenotes (formatSuperscript z) z := by
  refine ⟨intText z, intText_denotes z, ?_⟩
  unfold formatSuperscript
  rcases intText_denotes z with ⟨-, h⟩ | ⟨-, r, hr, h⟩
  · exact raised_of_nat h
  · rw [hr]
    exact .cons (by decide) (raised_of_nat h)

/-! ## C43: custom labels -/

/-- C43: the `i`-th tick is labelled with the `(i mod n)`-th of the `n` labels given, whatever its value. -/
theorem C43_custom_cycle (labels : List Str) (i : Nat) (v : Str) (h : labels ≠ []) :
    labels[i % labels.length]? = some (formatCustom labels i v) := by
  have hl : 0 < labels.length := List.length_pos_iff.2 h
  have hi : i % labels.length < labels.length := Nat.mod_lt _ hl
  have he : labels.isEmpty = false := by cases labels <;> simp_all
  simp [formatCustom, he, List.getElem?_eq_getElem hi]

/-- C43: without labels every tick label is empty. -/
theorem C43_custom_empty (i : Nat) (v : Str) : formatCustom [] i v = [] := rfl

/-- C43: the labels of `(custom a b c)` are the words given, in order. -/
theorem C43_custom_inline (stod : Str → Option (ℝ × Nat)) (readFile : Str → Option Str) (words : List Str)
    (rest : List Expr) :
    formatConfigure stod readFile (.list (.literal "custom".toList :: words.map .literal) :: rest) =
      .ok (.custom words) := by
  have : configureCustom readFile (words.map .literal) = .ok (.custom words) := by
    cases words with
    | nil => rfl
    | cons w ws =>
      simp only [configureCustom, List.map_cons, Expr.getValue, List.map_map]
      congr 3
      conv_rhs => rw [← List.map_id ws]
      rfl
  rw [← this]
  simp [formatConfigure, exprIsWord, exprIsListHead, exprListTail, Expr.isValue, Expr.getValue]

example : formatCustom [['a'], ['b'], ['c']] 7 ['4', '2'] = ['b'] := by decide

/-! ## C69: number labels -/

/-- C69: a `fixed` label has exactly the configured number of decimals and is a correctly rounded value: at most
half a unit of the last decimal away from the tick's value. -/
theorem C69_fixed (stod : Str → Option (ℝ × Nat)) (p i : Nat) (s : Str) (x : ℝ) (n : Nat) (h : stod s = some (x, n)) :
    ∃ v, FixedDenotes p (formatFixed stod p i s) v ∧ |v - x| ≤ 1 / 2 / 10 ^ p := by
  simp only [formatFixed, valueToFloat, h]
  exact fixedText_denotes p x

/-- C69: an `integer` label is the decimal notation of the value without its decimals. -/
theorem C69_integer (stod : Str → Option (ℝ × Nat)) (i : Nat) (s : Str) (x : ℝ) (n : Nat)
    (h : stod s = some (x, n)) :
    ∃ z : ℤ, IntDenotes (formatInteger stod i s) z ∧ |(z : ℝ)| ≤ |x| ∧ |x - z| < 1 ∧ (∀ k : ℤ, x = k → z = k) := by
  refine ⟨truncZ x, ?_, ?_, ?_, ?_⟩
  · simp only [formatInteger, valueToFloat, h]; exact intText_denotes _
  · unfold truncZ
    split
    · next hx =>
      have h0 : (0 : ℤ) ≤ ⌊x⌋ := Int.floor_nonneg.2 hx
      rw [abs_of_nonneg (by exact_mod_cast h0), abs_of_nonneg hx]
      exact Int.floor_le x
    · next hx =>
      push Not at hx
      have h0 : ⌈x⌉ ≤ (0 : ℤ) := Int.ceil_le.2 (by simpa using hx.le)
      rw [abs_of_nonpos (by exact_mod_cast h0), abs_of_neg hx]
      linarith [Int.le_ceil x]
  · have h1 := Int.floor_le x
    have h2 := Int.lt_floor_add_one x
    have h3 := Int.le_ceil x
    have h4 := Int.ceil_lt_add_one x
    unfold truncZ
    split <;> rw [abs_lt] <;> constructor <;> linarith
  · rintro k rfl
    unfold truncZ; split <;> simp

/-- The digits before the power of ten of the scientific notation. -/
theorem sci_mantissa (v : ℝ) (hv : v ≠ 0) :
    (1 ≤ |v| → 1 ≤ |v / (10 : ℝ) ^ sciExp v| ∧ |v / (10 : ℝ) ^ sciExp v| < 10) ∧
    (|v| < 1 → 1 / 10 < |v / (10 : ℝ) ^ sciExp v| ∧ |v / (10 : ℝ) ^ sciExp v| ≤ 1) := by
  have hab : v / (if v ≥ 0 then (1 : ℝ) else -1) = |v| := by
    split
    · next h => rw [abs_of_nonneg h]; simp
    · next h => rw [abs_of_neg (not_le.1 h)]; simp [div_neg]
  have hp : 0 < |v| := abs_pos.2 hv
  have hten : ∀ e : ℤ, |v / (10 : ℝ) ^ e| = |v| / (10 : ℝ) ^ e := by
    intro e; rw [abs_div, abs_of_pos (zpow_pos (by norm_num : (0 : ℝ) < 10) e)]
  have hlog : |v| = (10 : ℝ) ^ (Real.logb 10 |v|) := (Real.rpow_logb (by norm_num) (by norm_num) hp).symm
  have hz : ∀ e : ℤ, |v| / (10 : ℝ) ^ e = (10 : ℝ) ^ (Real.logb 10 |v| - e) := by
    intro e
    rw [Real.rpow_sub (by norm_num), ← hlog, Real.rpow_intCast]
  unfold sciExp
  rw [hab]
  constructor
  · intro h1
    have hl : 0 ≤ Real.logb 10 |v| := Real.logb_nonneg (by norm_num) h1
    have ht : truncZ (Real.logb 10 |v|) = ⌊Real.logb 10 |v|⌋ := if_pos hl
    rw [ht, hten, hz]
    constructor
    · exact Real.one_le_rpow (by norm_num) (by linarith [Int.floor_le (Real.logb 10 |v|)])
    · calc (10 : ℝ) ^ (Real.logb 10 |v| - ⌊Real.logb 10 |v|⌋) < (10 : ℝ) ^ (1 : ℝ) :=
          Real.rpow_lt_rpow_of_exponent_lt (by norm_num) (by linarith [Int.lt_floor_add_one (Real.logb 10 |v|)])
        _ = 10 := Real.rpow_one _
  · intro h1
    have hl : Real.logb 10 |v| < 0 := Real.logb_neg (by norm_num) hp h1
    have ht : truncZ (Real.logb 10 |v|) = ⌈Real.logb 10 |v|⌉ := if_neg (not_le.2 hl)
    rw [ht, hten, hz]
    constructor
    · calc (1 / 10 : ℝ) = (10 : ℝ) ^ (-1 : ℝ) := by rw [Real.rpow_neg_one]; norm_num
        _ < _ := Real.rpow_lt_rpow_of_exponent_lt (by norm_num) (by linarith [Int.ceil_lt_add_one (Real.logb 10 |v|)])
    · exact Real.rpow_le_one_of_one_le_of_nonpos (by norm_num) (by linarith [Int.le_ceil (Real.logb 10 |v|)])

/-- C69: a `scientific` label is a decimal number with the configured decimals and a power of ten; together they
are the tick's value up to half a unit of the last decimal; for values of magnitude at least 1 the number
before the power has magnitude between 1 and 10 before it is rounded. -/
theorem C69_scientific (stod : Str → Option (ℝ × Nat)) (p i : Nat) (s : Str) (x : ℝ) (n : Nat)
    (h : stod s = some (x, n)) (hx : x ≠ 0) :
    ∃ (a : Str) (m : ℝ) (t : Str) (e : ℤ), formatScientific stod p i s = a ++ " × 10".toList ++ t ∧
      FixedDenotes p a m ∧ RaisedDenotes t e ∧ |m * (10 : ℝ) ^ e - x| ≤ 1 / 2 / 10 ^ p * (10 : ℝ) ^ e ∧
      (1 ≤ |x| → (10 : ℝ) ^ e ≤ |x| ∧ |x| < 10 * (10 : ℝ) ^ e) := by
  obtain ⟨m, hm1, hm2⟩ := fixedText_denotes p (x / (10 : ℝ) ^ sciExp x)
  have hpos : (0 : ℝ) < (10 : ℝ) ^ sciExp x := zpow_pos (by norm_num) _
  refine ⟨_, m, _, sciExp x, ?_, hm1, formatSuperscript_denotes _, ?_, ?_⟩
  · simp only [formatScientific, valueToFloat, h, hx, if_false]
    rfl
  · have e : m * (10 : ℝ) ^ sciExp x - x = (m - x / (10 : ℝ) ^ sciExp x) * (10 : ℝ) ^ sciExp x := by
      rw [sub_mul, div_mul_cancel₀ _ hpos.ne']
    rw [e, abs_mul, abs_of_pos hpos]
    exact mul_le_mul_of_nonneg_right hm2 hpos.le
  · intro h1
    have := (sci_mantissa x hx).1 h1
    rw [abs_div, abs_of_pos hpos, le_div_iff₀ hpos, div_lt_iff₀ hpos, one_mul] at this
    exact this

/-- C69: zero is labelled `0` in the scientific and `base` formats. -/
theorem C69_zero (stod : Str → Option (ℝ × Nat)) (p b i : Nat) (s : Str) (n : Nat) (h : stod s = some (0, n)) :
    formatScientific stod p i s = ['0'] ∧ formatBase .exact stod b p i s = some ['0'] := by
  simp [formatScientific, formatBase, valueToFloat, h]

/-- C69: values that are no numbers are labelled as zero. -/
theorem C69_no_number (stod : Str → Option (ℝ × Nat)) (p i : Nat) (s : Str) (h : stod s = none) :
    FixedDenotes p (formatFixed stod p i s) 0 ∧ formatScientific stod p i s = ['0'] ∧
    formatInteger stod i s = ['0'] := by
  refine ⟨?_, by simp [formatScientific, valueToFloat, h], ?_⟩
  · obtain ⟨m, h1, h2⟩ := fixedText_denotes p 0
    have : m = 0 := by
      obtain ⟨neg, _, k, frac, _, _, _, _, hv⟩ := h1
      have hpos : (0 : ℝ) < 10 ^ p := by positivity
      have hw : |m| = (k : ℝ) + (Decimal.value frac : ℝ) / 10 ^ p := by
        rw [hv, abs_mul, abs_of_nonneg (by positivity : (0 : ℝ) ≤ k + (Decimal.value frac : ℝ) / 10 ^ p)]
        cases neg <;> simp
      rw [sub_zero, hw, div_div, le_div_iff₀ (by positivity)] at h2
      have h3 : ((k * 10 ^ p + Decimal.value frac : ℕ) : ℝ) * 2 ≤ 1 := by
        push_cast
        rw [add_mul, div_mul_eq_mul_div] at h2
        have : (Decimal.value frac : ℝ) * (2 * 10 ^ p) / 10 ^ p = Decimal.value frac * 2 := by field_simp
        rw [this] at h2
        linarith
      have h4 : k * 10 ^ p + Decimal.value frac = 0 := by
        have : (k * 10 ^ p + Decimal.value frac) * 2 ≤ 1 := by exact_mod_cast h3
        omega
      have hk : k = 0 := by
        rcases Nat.eq_zero_of_add_eq_zero_right h4 |> Nat.mul_eq_zero.1 with h | h
        · exact h
        · exact absurd h (by positivity)
      have hf : Decimal.value frac = 0 := Nat.eq_zero_of_add_eq_zero_left h4
      rw [hk, hf] at hw
      exact abs_eq_zero.1 (by rw [hw]; simp)
    rw [this] at h1
    simpa [formatFixed, valueToFloat, h] using h1
  simp [formatInteger, valueToFloat, h, truncZ, intText, natText]

/-- C69, violated by the code: below 1 the scientific notation is not normalised: the power of ten is at least as large as
the value (so that the number before it is at most 1 instead of at least 1), by less than a factor of ten. -/
theorem C69_scientific_small (stod : Str → Option (ℝ × Nat)) (p i : Nat) (s : Str) (x : ℝ) (n : Nat)
    (h : stod s = some (x, n)) (hx : x ≠ 0) (h1 : |x| < 1) :
    ∃ (a t : Str) (e : ℤ), formatScientific stod p i s = a ++ " × 10".toList ++ t ∧ RaisedDenotes t e ∧
      |x| ≤ (10 : ℝ) ^ e ∧ (10 : ℝ) ^ e < 10 * |x| := by
  have hpos : (0 : ℝ) < (10 : ℝ) ^ sciExp x := zpow_pos (by norm_num) _
  have hm := (sci_mantissa x hx).2 h1
  rw [abs_div, abs_of_pos hpos, div_le_one hpos, lt_div_iff₀ hpos] at hm
  refine ⟨fixedText p (x / (10 : ℝ) ^ sciExp x), _, sciExp x, ?_, formatSuperscript_denotes _, hm.2, by linarith [hm.1]⟩
  simp only [formatScientific, valueToFloat, h, hx, if_false]
  rfl

/-- C69: a value that is a power of the base is labelled with the base and its exponent. -/
theorem C69_base_partial (stod : Str → Option (ℝ × Nat)) (b p i : Nat) (hb : 2 ≤ b) (s : Str) (n : Nat) (k : ℤ)
    (h : stod s = some ((b : ℝ) ^ k, n)) :
    ∃ a t, formatBase .exact stod b p i s = some (a ++ t) ∧ NatDenotes a b ∧ RaisedDenotes t k := by
  have hb1 : (1 : ℝ) < b := by exact_mod_cast hb
  have hpos : (0 : ℝ) < (b : ℝ) ^ k := zpow_pos (by linarith) _
  have hl : Real.log ((b : ℝ) ^ k) / Real.log b = k := by
    rw [Real.log_zpow, mul_div_assoc, div_self (Real.log_pos hb1).ne', mul_one]
  have ht : truncZ ((k : ℝ)) = k := by unfold truncZ; split <;> simp
  refine ⟨natText b, formatSuperscript k, ?_, natText_denotes b, formatSuperscript_denotes k⟩
  simp only [formatBase, Arith.exact_d, valueToFloat, h, hpos.ne', not_lt.2 hpos.le, if_false, hl, ht]

/-- C69, violated by the code: the exponent is a quotient of rounded logarithms; if it comes out a little below the true
exponent, a power of the base is labelled with the exponent before.  (With doubles, `log(1000) / log(10)` is
2.9999999999999996: the value 1000 is labelled 10².) -/
theorem C69_base_rounding (a : Arith) (stod : Str → Option (ℝ × Nat)) (b p i : Nat) (hb : 2 ≤ b) (s : Str) (n k : Nat)
    (h : stod s = some ((b : ℝ) ^ (k + 1), n)) (h1 : (k : ℝ) ≤ a.d (a.d (Real.log ((b : ℝ) ^ (k + 1))) / a.d (Real.log b)))
    (h2 : a.d (a.d (Real.log ((b : ℝ) ^ (k + 1))) / a.d (Real.log b)) < k + 1) :
    ∃ t u, formatBase a stod b p i s = some (t ++ u) ∧ NatDenotes t b ∧ RaisedDenotes u k := by
  have hb1 : (1 : ℝ) < b := by exact_mod_cast hb
  have hpos : (0 : ℝ) < (b : ℝ) ^ (k + 1) := pow_pos (by linarith) _
  have ht : truncZ (a.d (a.d (Real.log ((b : ℝ) ^ (k + 1))) / a.d (Real.log b))) = (k : ℤ) := by
    unfold truncZ
    have h0 : (0 : ℝ) ≤ k := by positivity
    rw [if_pos (ge_iff_le.2 (h0.trans h1)), Int.floor_eq_iff]
    exact ⟨by exact_mod_cast h1, by exact_mod_cast h2⟩
  refine ⟨natText b, formatSuperscript k, ?_, natText_denotes b, formatSuperscript_denotes k⟩
  simp only [formatBase, valueToFloat, h, hpos.ne', not_lt.2 hpos.le, if_false, ht]

/-- With numbers rounded to quarters, 8 = 2³ is labelled 2². -/
example : quarters.Good ∧ ((2 : ℕ) : ℝ) ≤ quarters.d (quarters.d (Real.log (((2 : ℕ) : ℝ) ^ (2 + 1))) / quarters.d (Real.log ((2 : ℕ) : ℝ))) ∧
    quarters.d (quarters.d (Real.log (((2 : ℕ) : ℝ) ^ (2 + 1))) / quarters.d (Real.log ((2 : ℕ) : ℝ))) < (2 : ℕ) + 1 := by
  have e : (((2 : ℕ) : ℝ) ^ (2 + 1)) = 8 := by norm_num
  rw [e, Nat.cast_ofNat, quarters_exponent]
  exact ⟨quarters_good, by norm_num, by norm_num⟩

/-- C69, violated by the code: all values between two powers of the base are labelled with the lower one. -/
theorem C69_base_truncates (stod : Str → Option (ℝ × Nat)) (b p i : Nat) (hb : 2 ≤ b) (s s' : Str) (x : ℝ)
    (n n' k : Nat) (h : stod s = some (x, n)) (h' : stod s' = some ((b : ℝ) ^ k, n'))
    (h1 : (b : ℝ) ^ k ≤ x) (h2 : x < (b : ℝ) ^ (k + 1)) :
    formatBase .exact stod b p i s = formatBase .exact stod b p i s' := by
  have hb1 : (1 : ℝ) < b := by exact_mod_cast hb
  have hlb := Real.log_pos hb1
  have hpos : (0 : ℝ) < (b : ℝ) ^ k := pow_pos (by linarith) _
  have hx : 0 < x := lt_of_lt_of_le hpos h1
  have l1 : Real.log ((b : ℝ) ^ k) / Real.log b = k := by
    rw [Real.log_pow, mul_div_assoc, div_self hlb.ne', mul_one]
  have l2 : (k : ℝ) ≤ Real.log x / Real.log b := by
    rw [← l1]; exact div_le_div_of_nonneg_right (Real.log_le_log hpos h1) hlb.le
  have l3 : Real.log x / Real.log b < k + 1 := by
    rw [div_lt_iff₀ hlb]
    have := Real.log_lt_log hx h2
    rw [Real.log_pow] at this
    push_cast at this; exact this
  have hk0 : (0 : ℝ) ≤ k := Nat.cast_nonneg k
  have t1 : truncZ (Real.log x / Real.log b) = k := by
    have : Real.log x / Real.log b ≥ 0 := le_trans hk0 l2
    simp only [truncZ, this, if_true]
    rw [Int.floor_eq_iff]; exact ⟨by exact_mod_cast l2, by exact_mod_cast l3⟩
  have t2 : truncZ ((k : ℝ)) = k := by simp [truncZ, hk0]
  simp only [formatBase, Arith.exact_d, valueToFloat, h, h', hx.ne', hpos.ne', not_lt.2 hx.le, not_lt.2 hpos.le, if_false, l1, t1, t2]

/-- C69, violated by the code: tick values pass through a text with six decimals, so that a value below half a
millionth is labelled `0` in scientific notation (for a `stod` that reads `0.000000` and `-0.000000` as zero). -/
theorem C69_tiny_ticks (stod : Str → Option (ℝ × Nat)) (p i : Nat)
    (h1 : stod "0.000000".toList = some (0, 8)) (h2 : stod "-0.000000".toList = some (0, 9)) (x : ℝ)
    (hx : |x| < 1 / 2 / 10 ^ 6) :
    formatScientific stod p i (valueFromFloat x) = ['0'] := by
  have h0 : roundEven (|x| * 10 ^ 6) = 0 := by
    have h1 : (0 : ℝ) ≤ |x| * 10 ^ 6 := by positivity
    have h2 : |x| * 10 ^ 6 < 1 / 2 := by
      have := (lt_div_iff₀ (by positivity : (0 : ℝ) < 10 ^ 6)).1 hx; exact this
    have hf : ⌊|x| * 10 ^ 6⌋ = 0 := by rw [Int.floor_eq_iff]; constructor <;> push_cast <;> linarith
    simp only [roundEven, hf]
    rw [if_pos]
    push_cast; linarith
  have hz : valueFromFloat x = "0.000000".toList ∨ valueFromFloat x = "-0.000000".toList := by
    simp only [valueFromFloat, fixedText, h0]
    by_cases hx : x < 0
    · right; simp [hx, natText, padDigits]
    · left; simp [hx, natText, padDigits]
  have hv : valueToFloat stod (valueFromFloat x) = 0 := by
    unfold valueToFloat
    rcases hz with hz | hz
    · rw [hz, h1]
    · rw [hz, h2]
  simp only [formatScientific, hv, if_true]

/-- The hypotheses of the label theorems are met. -/
example : ∃ (stod : Str → Option (ℝ × Nat)) (s : Str) (x : ℝ) (n : Nat),
    stod s = some (x, n) ∧ x ≠ 0 ∧ (1 : ℝ) ≤ |x| ∧ ((10 : ℕ) : ℝ) ^ 1 ≤ x ∧ x < ((10 : ℕ) : ℝ) ^ 2 :=
  ⟨fun _ => some (50, 2), ['5', '0'], 50, 2, rfl, by norm_num, by norm_num, by norm_num, by norm_num⟩

example : natText 1024 = ['1', '0', '2', '4'] := by norm_num [natText]

/-! ## C70: which formats are accepted -/

/-- The names of the formats that can be given as a single word. -/
def formatWords : List Str := ["fixed".toList, "scientific".toList, "datetime".toList, "integer".toList]

/-- C70: `fixed` and `scientific` take an optional number of decimals (one if not given), `datetime` an optional
time format, `integer` nothing. -/
theorem C70_words (stod : Str → Option (ℝ × Nat)) (readFile : Str → Option Str) (rest : List Expr) :
    formatConfigure stod readFile (.literal "fixed".toList :: rest) = .ok (.fixed 1) ∧
    formatConfigure stod readFile (.literal "scientific".toList :: rest) = .ok (.scientific 1) ∧
    formatConfigure stod readFile (.literal "datetime".toList :: rest) =
      .ok (.datetime "%Y-%m-%d %H:%M:%S".toList) ∧
    formatConfigure stod readFile (.literal "integer".toList :: rest) = .ok .integer := by
  refine ⟨?_, ?_, ?_, ?_⟩ <;>
    simp [formatConfigure, exprIsWord, exprIsListHead, exprListTail, Expr.isValue, Expr.getValue, configurePrecision,
      configureDatetime, configureInteger]

/-- C70: with arguments. -/
theorem C70_arguments (stod : Str → Option (ℝ × Nat)) (readFile : Str → Option Str) (rest : List Expr) (a b : Str)
    (k m : Nat) (n n' : Nat) (ha : stod a = some ((k : ℝ), n)) (hb : stod b = some ((m : ℝ), n')) :
    formatConfigure stod readFile (.list [.literal "fixed".toList, .literal a] :: rest) = .ok (.fixed k) ∧
    formatConfigure stod readFile (.list [.literal "scientific".toList, .literal a] :: rest) = .ok (.scientific k) ∧
    formatConfigure stod readFile (.list [.literal "datetime".toList, .literal a] :: rest) = .ok (.datetime a) ∧
    formatConfigure stod readFile (.list [.literal "base".toList, .literal a] :: rest) = .ok (.base k 1) ∧
    formatConfigure stod readFile (.list [.literal "base".toList, .literal a, .literal b] :: rest) =
      .ok (.base k m) := by
  have ht : ∀ j : Nat, truncZ ((j : ℝ)) = j := by intro j; simp [truncZ]
  refine ⟨?_, ?_, ?_, ?_, ?_⟩ <;>
    simp [formatConfigure, exprIsWord, exprIsListHead, exprListTail, Expr.isValue, Expr.getValue, configurePrecision,
      configureDatetime, configureInteger, configureBase, precisionArg, ha, hb, ht]

/-- C70: every other word, a list with another head, and an empty argument are refused. -/
theorem C70_refused (stod : Str → Option (ℝ × Nat)) (readFile : Str → Option Str) :
    (∀ w rest, w ∉ formatWords → ∃ e, formatConfigure stod readFile (.literal w :: rest) = .error e) ∧
    (∀ w es rest, w ∉ "base".toList :: "custom".toList :: formatWords →
      ∃ e, formatConfigure stod readFile (.list (.literal w :: es) :: rest) = .error e) ∧
    (∃ e, formatConfigure stod readFile [] = .error e) ∧
    (∀ rest, ∃ e, formatConfigure stod readFile (.list [] :: rest) = .error e) ∧
    (∀ es es' rest, ∃ e, formatConfigure stod readFile (.list (.list es :: es') :: rest) = .error e) := by
  refine ⟨?_, ?_, ?_, ?_, ?_⟩
  · intro w rest hw
    simp only [formatWords, List.mem_cons, List.not_mem_nil, or_false, not_or] at hw
    obtain ⟨h1, h2, h3, h4⟩ := hw
    by_cases hb : w = "base".toList
    · subst hb
      exact ⟨.badArgs, by simp [formatConfigure, exprIsWord, exprIsListHead, Expr.isValue, Expr.getValue, configureBase]⟩
    · exact ⟨.badName, by simp [formatConfigure, exprIsWord, exprIsListHead, Expr.isValue, Expr.getValue] at *; simp_all⟩
  · intro w es rest hw
    simp only [formatWords, List.mem_cons, List.not_mem_nil, or_false, not_or] at hw
    exact ⟨.badName, by simp [formatConfigure, exprIsWord, exprIsListHead, Expr.isValue, Expr.getValue] at *; simp_all⟩
  · exact ⟨.badName, by simp [formatConfigure, exprIsWord, exprIsListHead]⟩
  · intro rest
    exact ⟨.badName, by simp [formatConfigure, exprIsWord, exprIsListHead, Expr.isValue]⟩
  · intro es es' rest
    exact ⟨.badName, by simp [formatConfigure, exprIsWord, exprIsListHead, Expr.isValue]⟩

/-- C70: too many arguments, and arguments that are no numbers, are refused. -/
theorem C70_bad_arguments (stod : Str → Option (ℝ × Nat)) (readFile : Str → Option Str) (rest : List Expr) :
    (∀ w ∈ formatWords, ∀ a b es,
      ∃ e, formatConfigure stod readFile (.list (.literal w :: a :: b :: es) :: rest) = .error e) ∧
    (∀ a, ∃ e, formatConfigure stod readFile (.list [.literal "integer".toList, a] :: rest) = .error e) ∧
    (∃ e, formatConfigure stod readFile (.list [.literal "base".toList] :: rest) = .error e) ∧
    (∀ w ∈ ["fixed".toList, "scientific".toList, "base".toList], ∀ a, stod a = none →
      ∃ e, formatConfigure stod readFile (.list [.literal w, .literal a] :: rest) = .error e) := by
  refine ⟨?_, ?_, ?_, ?_⟩
  · intro w hw a b es
    simp only [formatWords, List.mem_cons, List.not_mem_nil, or_false] at hw
    rcases hw with rfl | rfl | rfl | rfl <;>
      exact ⟨.badArgs, by simp [formatConfigure, exprIsWord, exprIsListHead, exprListTail, Expr.isValue, Expr.getValue,
        configurePrecision, configureDatetime, configureInteger]⟩
  · intro a
    exact ⟨.badArgs, by simp [formatConfigure, exprIsWord, exprIsListHead, exprListTail, Expr.isValue, Expr.getValue,
      configureInteger]⟩
  · exact ⟨.badArgs, by simp [formatConfigure, exprIsWord, exprIsListHead, exprListTail, Expr.isValue, Expr.getValue,
      configureBase]⟩
  · intro w hw a ha
    simp only [List.mem_cons, List.not_mem_nil, or_false] at hw
    rcases hw with rfl | rfl | rfl <;>
      exact ⟨.badArgs, by simp [formatConfigure, exprIsWord, exprIsListHead, exprListTail, Expr.isValue, Expr.getValue,
        configurePrecision, configureBase, precisionArg, ha]⟩

theorem fixedText_exact (p : Nat) (x : ℝ) :
    FixedDenotes p (fixedText p x)
      ((if decide (x < 0) then -1 else 1) * (((roundEven (|x| * 10 ^ p)).toNat : ℝ) / 10 ^ p)) := by
  set m : Nat := (roundEven (|x| * 10 ^ p)).toNat with hm
  obtain ⟨ds, h1, h2, h3, h4⟩ := padDigits_denotes p m
  have hpos : (0 : ℝ) < 10 ^ p := by positivity
  have hsplit : ((m / 10 ^ p : ℕ) : ℝ) + ((m % 10 ^ p : ℕ) : ℝ) / 10 ^ p = (m : ℝ) / 10 ^ p := by
    have := Nat.div_add_mod m (10 ^ p)
    rw [eq_div_iff hpos.ne', add_mul, div_mul_cancel₀ _ hpos.ne']
    exact_mod_cast by rw [mul_comm]; exact this
  refine ⟨decide (x < 0), natText (m / 10 ^ p), m / 10 ^ p, ds, natText_denotes _, h1, h2, ?_, ?_⟩
  · unfold fixedText
    simp only [← hm, h3, decide_eq_true_eq]
  · rw [h4, hsplit]

/-- C69: a positive value exactly halfway between two labels gets the one whose last digit is even. -/
theorem C69_fixed_tie (stod : Str → Option (ℝ × Nat)) (p i : Nat) (s : Str) (k n : Nat) (hk : 0 < k)
    (h : stod s = some ((2 * k + 1 / 2 : ℝ) / 10 ^ p, n) ∨ stod s = some ((2 * k - 1 / 2 : ℝ) / 10 ^ p, n)) :
    FixedDenotes p (formatFixed stod p i s) ((2 * k : ℝ) / 10 ^ p) := by
  have hp : (0 : ℝ) < 10 ^ p := by positivity
  have hk1 : (1 : ℝ) ≤ k := by exact_mod_cast hk
  have key : ∀ x : ℝ, (x = 2 * k + 1 / 2 ∨ x = 2 * k - 1 / 2) → roundEven x = 2 * k := by
    rintro x (rfl | rfl)
    · have hf : ⌊(2 * k + 1 / 2 : ℝ)⌋ = 2 * (k : ℤ) := by
        rw [Int.floor_eq_iff]; push_cast; constructor <;> linarith
      unfold roundEven
      rw [hf]; push_cast
      rw [if_neg (by linarith), if_neg (by linarith), if_pos (by omega)]
    · have hf : ⌊(2 * k - 1 / 2 : ℝ)⌋ = 2 * (k : ℤ) - 1 := by
        rw [Int.floor_eq_iff]; push_cast; constructor <;> linarith
      unfold roundEven
      rw [hf]; push_cast
      rw [if_neg (by linarith), if_neg (by linarith), if_neg (by omega)]
      ring
  have main : ∀ x : ℝ, (x = 2 * k + 1 / 2 ∨ x = 2 * k - 1 / 2) →
      FixedDenotes p (fixedText p (x / 10 ^ p)) ((2 * k : ℝ) / 10 ^ p) := by
    intro x hx
    have hx0 : 0 ≤ x := by rcases hx with rfl | rfl <;> linarith
    have hr := key x hx
    have e1 : |x / 10 ^ p| * 10 ^ p = x := by rw [abs_of_nonneg (by positivity)]; field_simp
    have := fixedText_exact p (x / 10 ^ p)
    rw [e1, hr] at this
    have hneg : ¬ x / 10 ^ p < 0 := not_lt.2 (by positivity)
    have h2 : (((2 * (k : ℤ)).toNat : ℕ) : ℝ) = 2 * k := by
      rw [show (2 * (k : ℤ)).toNat = 2 * k by omega]; push_cast; ring
    simpa [hneg, h2] using this
  simp only [formatFixed, valueToFloat]
  rcases h with h | h <;> rw [h] <;> exact main _ (by tauto)

example : ∃ stod : Str → Option (ℝ × Nat), stod ['2', '.', '5'] = some ((2 * (1 : ℕ) + 1 / 2 : ℝ) / 10 ^ 0, 3) :=
  ⟨fun _ => some _, rfl⟩

/-- C69: a `datetime` label is the time format applied to the value as whole seconds since 1970. -/
theorem C69_datetime (stod : Str → Option (ℝ × Nat)) (strftime : Str → ℤ → Str) (fmt s : Str) (i n : Nat) (x : ℝ)
    (h : stod s = some (x, n)) (hx : 0 ≤ x) (hu : x * 1000000 < 2 ^ 64) :
    formatDatetime stod strftime fmt i s = some (strftime fmt ⌊x⌋) := by
  unfold formatDatetime valueToFloat
  rw [h]
  have : truncZ (x * 1000000) / 1000000 = ⌊x⌋ := by
    unfold truncZ
    rw [if_pos (by positivity)]
    have := Int.floor_div_natCast (x * 1000000) 1000000
    have e : x * 1000000 / ((1000000 : ℕ) : ℝ) = x := by push_cast; field_simp
    rw [e] at this
    rw [this]; rfl
  have hn : ¬ (x * 1000000 ≤ -1 ∨ 2 ^ 64 ≤ x * 1000000) := by
    push Not
    exact ⟨by linarith [show 0 ≤ x * 1000000 by positivity], hu⟩
  simp only [this, if_neg hn]

/-- C69, violated by the code: labelling a time before 1970 is undefined. -/
theorem C69_datetime_undefined (stod : Str → Option (ℝ × Nat)) (strftime : Str → ℤ → Str) (fmt s : Str) (i n : Nat) (x : ℝ)
    (h : stod s = some (x, n)) (hx : x ≤ -1) : formatDatetime stod strftime fmt i s = none := by
  unfold formatDatetime valueToFloat
  rw [h]
  exact if_pos (.inl (by dsimp only; linarith))

/-- C43: `(custom (csv file column))` uses the values of the column; a file that cannot be used is reported; any
other list is refused. -/
theorem C43_custom_csv (stod : Str → Option (ℝ × Nat)) (readFile : Str → Option Str) (args rest rest' : List Expr) :
    (∀ vs, dataLoadCsvColumn readFile args = (vs, .ok ()) →
      formatConfigure stod readFile (.list (.literal "custom".toList :: .list (.literal "csv".toList :: args) :: rest) :: rest') =
        .ok (.custom vs)) ∧
    (∀ vs o, dataLoadCsvColumn readFile args = (vs, o) → o ≠ .ok () →
      formatConfigure stod readFile (.list (.literal "custom".toList :: .list (.literal "csv".toList :: args) :: rest) :: rest') =
        .error (.data o)) ∧
    (∀ es, (∀ hd tl, es = hd :: tl → ¬ (hd.isValue = true ∧ hd.getValue = "csv".toList)) →
      formatConfigure stod readFile (.list (.literal "custom".toList :: .list es :: rest) :: rest') = .error .badArgs) := by
  have hconf : ∀ es, formatConfigure stod readFile (.list (.literal "custom".toList :: .list es :: rest) :: rest') =
      (dataLoadStrings readFile (.list es :: rest)).map .custom := by
    intro es
    simp [formatConfigure, exprIsWord, exprIsListHead, exprListTail, Expr.isValue, Expr.getValue, configureCustom]
  have hcsv : exprIsListHead (.list (.literal "csv".toList :: args) :: rest) "csv".toList = true := by
    simp [exprIsListHead, Expr.isValue, Expr.getValue]
  refine ⟨?_, ?_, ?_⟩
  · intro vs h
    rw [hconf]
    unfold dataLoadStrings
    rw [if_pos hcsv]
    rw [show exprListTail (.list (.literal "csv".toList :: args) :: rest) = args from rfl]
    rw [h]; rfl
  · intro vs o h ho
    rw [hconf]
    unfold dataLoadStrings
    rw [if_pos hcsv]
    rw [show exprListTail (.list (.literal "csv".toList :: args) :: rest) = args from rfl]
    rw [h]
    cases o with
    | ok u => exact absurd rfl ho
    | _ => rfl
  · intro es hes
    rw [hconf]
    unfold dataLoadStrings
    rw [if_neg]
    · rfl
    · cases es with
      | nil => simp [exprIsListHead]
      | cons hd tl =>
        intro hh
        apply hes hd tl rfl
        have : (hd.isValue && hd.getValue == "csv".toList) = true := hh
        rw [Bool.and_eq_true] at this
        exact ⟨this.1, by simpa using this.2⟩

/-- C70: what the configured formats print for a tick whose value is `x`: a number with the configured decimals, a number
and a power of ten, a whole number, a time, a base and an exponent, or the text whose turn it is. -/
theorem C70_effect (stod : Str → Option (ℝ × Nat)) (strftime : Str → ℤ → Str) (i n : Nat) (s : Str) (x : ℝ)
    (h : stod s = some (x, n)) :
    (∀ p, ∃ t v, (FormatSpec.fixed p).label stod strftime i s = some t ∧ FixedDenotes p t v ∧ |v - x| ≤ 1 / 2 / 10 ^ p) ∧
    (∀ p, x ≠ 0 → ∃ (a : Str) (m : ℝ) (t : Str) (e : ℤ),
      (FormatSpec.scientific p).label stod strftime i s = some (a ++ " × 10".toList ++ t) ∧
      FixedDenotes p a m ∧ RaisedDenotes t e ∧ |m * (10 : ℝ) ^ e - x| ≤ 1 / 2 / 10 ^ p * (10 : ℝ) ^ e) ∧
    (∃ t, ∃ z : ℤ, FormatSpec.integer.label stod strftime i s = some t ∧ IntDenotes t z ∧ |(z : ℝ)| ≤ |x| ∧ |x - z| < 1) ∧
    (∀ f, 0 ≤ x → x * 1000000 < 2 ^ 64 →
      (FormatSpec.datetime f).label stod strftime i s = some (strftime f ⌊x⌋)) ∧
    (∀ (b p : Nat) (k : ℤ), 2 ≤ b → x = (b : ℝ) ^ k → ∃ a t, (FormatSpec.base b p).label stod strftime i s = some (a ++ t) ∧
      NatDenotes a b ∧ RaisedDenotes t k) ∧
    (∀ vs : List Str, vs ≠ [] → (FormatSpec.custom vs).label stod strftime i s = vs[i % vs.length]?) := by
  refine ⟨fun p => ?_, fun p hx => ?_, ?_, fun f h0 h1 => ?_, fun b p k hb hk => ?_, fun vs hv => ?_⟩
  · obtain ⟨v, h1, h2⟩ := C69_fixed stod p i s x n h
    exact ⟨_, v, rfl, h1, h2⟩
  · obtain ⟨a, m, t, e, h1, h2, h3, h4, -⟩ := C69_scientific stod p i s x n h hx
    exact ⟨a, m, t, e, congrArg some h1, h2, h3, h4⟩
  · obtain ⟨z, h1, h2, h3, -⟩ := C69_integer stod i s x n h
    exact ⟨_, z, rfl, h1, h2, h3⟩
  · exact C69_datetime stod strftime f s i n x h h0 h1
  · subst hk
    exact C69_base_partial stod b p i hb s n k h
  · exact (C43_custom_cycle vs i s hv).symm

end
end Clip
