import Verif.Model.Color
import Verif.Spec.Text
import Verif.Props.PlotElements
import Mathlib.Tactic.Linarith
import Mathlib.Tactic.FieldSimp
import Mathlib.Tactic.Ring
import Mathlib.Tactic.IntervalCases
/-!
# C27, C28, C71: colours
-/
set_option linter.unusedSimpArgs false
namespace Clip
noncomputable section
open TextSpec (hexVal)

/-! ## Hexadecimal digits -/

theorem hexVal_mem (c : Char) (x : Nat) (h : hexVal c = some x) :
    c ∈ "0123456789abcdefABCDEF".toList := by
  have hc : c = Char.ofNat c.toNat := (Char.ofNat_toNat c).symm
  unfold hexVal at h
  split at h
  · next hh =>
    have h1 : 48 ≤ c.toNat := hh.1
    have h2 : c.toNat ≤ 57 := hh.2
    rw [hc]; generalize c.toNat = n at *; interval_cases n <;> decide
  · split at h
    · next hh =>
      have h1 : 97 ≤ c.toNat := hh.1
      have h2 : c.toNat ≤ 102 := hh.2
      rw [hc]; generalize c.toNat = n at *; interval_cases n <;> decide
    · split at h
      · next hh =>
        have h1 : 65 ≤ c.toNat := hh.1
        have h2 : c.toNat ≤ 70 := hh.2
        rw [hc]; generalize c.toNat = n at *; interval_cases n <;> decide
      · exact absurd h (by simp)

theorem hex_facts : ∀ c ∈ "0123456789abcdefABCDEF".toList, ∃ x, hexVal c = some x ∧ x < 16 ∧
    hexDigitVal c = some x ∧ isSpaceC c = false ∧ c ≠ '-' ∧ c ≠ '+' ∧ hexDigit x = c.toLower ∧ c ≠ 'x' ∧ c ≠ 'X' := by
  decide

theorem hex_info {c : Char} {x : Nat} (h : hexVal c = some x) :
    x < 16 ∧ hexDigitVal c = some x ∧ isSpaceC c = false ∧ c ≠ '-' ∧ c ≠ '+' ∧ hexDigit x = c.toLower := by
  obtain ⟨y, h1, h2, h3, h4, h5, h6, h7, -⟩ := hex_facts c (hexVal_mem c x h)
  rw [h] at h1
  cases h1
  exact ⟨h2, h3, h4, h5, h6, h7⟩

theorem stoi16_one {a : Char} {x : Nat} (ha : hexVal a = some x) : stoi16 [a] = some (x : ℤ) := by
  obtain ⟨h1, h2, h3, h4, h5, h6⟩ := hex_info ha
  simp [stoi16, h3, h4, h5, h2, hexRead]

theorem stoi16_two {a b : Char} {x y : Nat} (ha : hexVal a = some x) (hb : hexVal b = some y) :
    stoi16 [a, b] = some ((16 * x + y : ℕ) : ℤ) := by
  obtain ⟨h1, h2, h3, h4, h5, h6⟩ := hex_info ha
  obtain ⟨k1, k2, k3, k4, k5, k6⟩ := hex_info hb
  simp [stoi16, h3, h4, h5, h2, hexRead, k2]

/-! ## Single precision channels -/

theorem f32_channel_nat : ∀ n, n < 256 → n ≠ 0 →
    n * 2 ^ (f32Parts n 255).2 ≤ (f32Parts n 255).1 * 255 ∧
    (f32Parts n 255).1 * 255 < (n + 1) * 2 ^ (f32Parts n 255).2 ∧
    2 * ((f32Parts n 255).1 * 255) ≤ 2 * (n * 2 ^ (f32Parts n 255).2) + 255 ∧ 23 ≤ (f32Parts n 255).2 := by
  decide +kernel

theorem f32_short_nat : ∀ n, n < 16 → n ≠ 0 →
    17 * n * 2 ^ (f32Parts n 15).2 ≤ (f32Parts n 15).1 * 255 ∧
    (f32Parts n 15).1 * 255 < (17 * n + 1) * 2 ^ (f32Parts n 15).2 ∧
    2 * ((f32Parts n 15).1 * 15) ≤ 2 * (n * 2 ^ (f32Parts n 15).2) + 15 ∧ 23 ≤ (f32Parts n 15).2 := by
  decide +kernel

theorem f32_floor {n m e : Nat} (h1 : n * 2 ^ e ≤ m * 255) (h2 : m * 255 < (n + 1) * 2 ^ e) :
    truncZ ((m : ℝ) / 2 ^ e * 255) = n := by
  have hp : (0 : ℝ) < 2 ^ e := by positivity
  have h1' : (n : ℝ) * 2 ^ e ≤ m * 255 := by exact_mod_cast h1
  have h2' : (m : ℝ) * 255 < (n + 1) * 2 ^ e := by exact_mod_cast h2
  have e1 : (m : ℝ) / 2 ^ e * 255 = m * 255 / 2 ^ e := by ring
  have hn : (m : ℝ) / 2 ^ e * 255 ≥ 0 := by positivity
  rw [truncZ, if_pos hn, Int.floor_eq_iff, e1]
  refine ⟨?_, ?_⟩
  · rw [le_div_iff₀ hp]; exact_mod_cast h1
  · rw [div_lt_iff₀ hp]; exact_mod_cast h2

theorem channel_trunc (n : Nat) (h : n < 256) : truncZ (f32Div n 255 * 255) = n := by
  unfold f32Div
  split
  · next h0 => subst h0; simp [truncZ]
  · next h0 => exact f32_floor (f32_channel_nat n h h0).1 (f32_channel_nat n h h0).2.1

theorem short_trunc (n : Nat) (h : n < 16) : truncZ (f32Div n 15 * 255) = (17 * n : ℕ) := by
  unfold f32Div
  split
  · next h0 => subst h0; simp [truncZ]
  · next h0 => exact f32_floor (f32_short_nat n h h0).1 (f32_short_nat n h h0).2.1

theorem f32_near {n m e d : Nat} (hd : 0 < d) (h1 : n * 2 ^ e ≤ m * d) (h2 : 2 * (m * d) ≤ 2 * (n * 2 ^ e) + d)
    (he : 23 ≤ e) : |(m : ℝ) / 2 ^ e - n / d| ≤ 1 / 2 ^ 24 := by
  have hp : (0 : ℝ) < 2 ^ e := by positivity
  have hdr : (0 : ℝ) < d := by exact_mod_cast hd
  have h1' : (n : ℝ) * 2 ^ e ≤ m * d := by exact_mod_cast h1
  have h2' : 2 * ((m : ℝ) * d) ≤ 2 * (n * 2 ^ e) + d := by exact_mod_cast h2
  have hle : (1 : ℝ) / 2 ^ e ≤ 1 / 2 ^ 23 :=
    one_div_le_one_div_of_le (by positivity) (pow_le_pow_right₀ (by norm_num) he)
  have e1 : (m : ℝ) / 2 ^ e - n / d = (m * d - n * 2 ^ e) / (2 ^ e * d) := by field_simp
  have hnn : 0 ≤ ((m : ℝ) * d - n * 2 ^ e) / (2 ^ e * d) := div_nonneg (by linarith) (by positivity)
  rw [e1, abs_of_nonneg hnn]
  calc ((m : ℝ) * d - n * 2 ^ e) / (2 ^ e * d) ≤ (d / 2) / (2 ^ e * d) :=
        div_le_div_of_nonneg_right (by linarith) (by positivity)
    _ = 1 / 2 ^ e / 2 := by field_simp
    _ ≤ 1 / 2 ^ 23 / 2 := by linarith
    _ = 1 / 2 ^ 24 := by norm_num

theorem channel_near (n : Nat) (h : n < 256) : |f32Div n 255 - n / 255| ≤ 1 / 2 ^ 24 := by
  unfold f32Div
  split
  · next h0 => subst h0; norm_num
  · next h0 =>
    obtain ⟨h1, -, h3, h4⟩ := f32_channel_nat n h h0
    exact_mod_cast f32_near (d := 255) (by norm_num) h1 h3 h4

theorem short_near (n : Nat) (h : n < 16) : |f32Div n 15 - n / 15| ≤ 1 / 2 ^ 24 := by
  unfold f32Div
  split
  · next h0 => subst h0; norm_num
  · next h0 =>
    obtain ⟨h1, -, h3, h4⟩ := f32_short_nat n h h0
    have h1' : n * 2 ^ (f32Parts n 15).2 ≤ (f32Parts n 15).1 * 15 := by rw [mul_assoc] at h1; omega
    exact_mod_cast f32_near (d := 15) (by norm_num) h1' h3 h4

theorem f32_one : f32Div 255 255 = 1 ∧ f32Div 15 15 = 1 ∧ f32Div 0 255 = 0 ∧ f32Div 0 15 = 0 := by
  have h1 : f32Parts 255 255 = (8388608, 23) := by decide +kernel
  have h2 : f32Parts 15 15 = (8388608, 23) := by decide +kernel
  refine ⟨?_, ?_, ?_, ?_⟩ <;> norm_num [f32Div, h1, h2]

theorem hexPad2_byte : ∀ n : Nat, n < 256 → hexPad2 (n : ℤ) = [hexDigit (n / 16), hexDigit (n % 16)] := by
  decide +kernel

theorem hexChannel_two {a b : Char} {x y : Nat} (ha : hexVal a = some x) (hb : hexVal b = some y) :
    hexChannel [a, b] 255 = some (f32Div (16 * x + y) 255) := by
  rw [hexChannel, stoi16_two ha hb]
  simp only [Option.map_some, Int.natAbs_natCast]
  rw [if_neg (by omega)]

theorem hexChannel_one {a : Char} {x : Nat} (ha : hexVal a = some x) :
    hexChannel [a] 15 = some (f32Div x 15) := by
  rw [hexChannel, stoi16_one ha]
  simp only [Option.map_some, Int.natAbs_natCast]
  rw [if_neg (by omega)]

/-! ## C27 -/

/-- The colour meant by channel values out of `d`, up to single precision. -/
def NearColor (c : Color) (r g b a : ℝ) : Prop :=
  |c.r - r| ≤ 1 / 2 ^ 24 ∧ |c.g - g| ≤ 1 / 2 ^ 24 ∧ |c.b - b| ≤ 1 / 2 ^ 24 ∧ |c.a - a| ≤ 1 / 2 ^ 24

theorem parse_six {r1 r2 g1 g2 b1 b2 : Char} {xr1 xr2 xg1 xg2 xb1 xb2 : Nat}
    (h1 : hexVal r1 = some xr1) (h2 : hexVal r2 = some xr2) (h3 : hexVal g1 = some xg1) (h4 : hexVal g2 = some xg2)
    (h5 : hexVal b1 = some xb1) (h6 : hexVal b2 = some xb2) :
    colorParse ['#', r1, r2, g1, g2, b1, b2] = .ok (some ⟨f32Div (16 * xr1 + xr2) 255, f32Div (16 * xg1 + xg2) 255,
      f32Div (16 * xb1 + xb2) 255, 1⟩) := by
  simp [colorParse, beginsWith, colorChannels, hexChannel_two h1 h2, hexChannel_two h3 h4, hexChannel_two h5 h6]

theorem parse_eight {r1 r2 g1 g2 b1 b2 a1 a2 : Char} {xr1 xr2 xg1 xg2 xb1 xb2 xa1 xa2 : Nat}
    (h1 : hexVal r1 = some xr1) (h2 : hexVal r2 = some xr2) (h3 : hexVal g1 = some xg1) (h4 : hexVal g2 = some xg2)
    (h5 : hexVal b1 = some xb1) (h6 : hexVal b2 = some xb2) (h7 : hexVal a1 = some xa1) (h8 : hexVal a2 = some xa2) :
    colorParse ['#', r1, r2, g1, g2, b1, b2, a1, a2] = .ok (some ⟨f32Div (16 * xr1 + xr2) 255,
      f32Div (16 * xg1 + xg2) 255, f32Div (16 * xb1 + xb2) 255, f32Div (16 * xa1 + xa2) 255⟩) := by
  simp [colorParse, beginsWith, colorChannels, hexChannel_two h1 h2, hexChannel_two h3 h4, hexChannel_two h5 h6,
    hexChannel_two h7 h8]

theorem parse_three {r g b : Char} {xr xg xb : Nat}
    (h1 : hexVal r = some xr) (h2 : hexVal g = some xg) (h3 : hexVal b = some xb) :
    colorParse ['#', r, g, b] = .ok (some ⟨f32Div xr 15, f32Div xg 15, f32Div xb 15, 1⟩) := by
  simp [colorParse, beginsWith, colorChannels, hexChannel_one h1, hexChannel_one h2, hexChannel_one h3]

/-- C27: the channels of `#rrggbb` are the two digit hexadecimal numbers divided by 255, opaque. -/
theorem C27_parse {r1 r2 g1 g2 b1 b2 : Char} {xr1 xr2 xg1 xg2 xb1 xb2 : Nat}
    (h1 : hexVal r1 = some xr1) (h2 : hexVal r2 = some xr2) (h3 : hexVal g1 = some xg1) (h4 : hexVal g2 = some xg2)
    (h5 : hexVal b1 = some xb1) (h6 : hexVal b2 = some xb2) :
    ∃ c, colorParse ['#', r1, r2, g1, g2, b1, b2] = .ok (some c) ∧ c.a = 1 ∧
      NearColor c ((16 * xr1 + xr2) / 255) ((16 * xg1 + xg2) / 255) ((16 * xb1 + xb2) / 255) 1 := by
  refine ⟨_, parse_six h1 h2 h3 h4 h5 h6, rfl, ?_, ?_, ?_, by norm_num⟩
  · exact_mod_cast channel_near (16 * xr1 + xr2) (by have := (hex_info h1).1; have := (hex_info h2).1; omega)
  · exact_mod_cast channel_near (16 * xg1 + xg2) (by have := (hex_info h3).1; have := (hex_info h4).1; omega)
  · exact_mod_cast channel_near (16 * xb1 + xb2) (by have := (hex_info h5).1; have := (hex_info h6).1; omega)

/-- C27: in `#rrggbbaa` the last pair is the opacity. -/
theorem C27_parse_alpha {r1 r2 g1 g2 b1 b2 a1 a2 : Char} {xr1 xr2 xg1 xg2 xb1 xb2 xa1 xa2 : Nat}
    (h1 : hexVal r1 = some xr1) (h2 : hexVal r2 = some xr2) (h3 : hexVal g1 = some xg1) (h4 : hexVal g2 = some xg2)
    (h5 : hexVal b1 = some xb1) (h6 : hexVal b2 = some xb2) (h7 : hexVal a1 = some xa1) (h8 : hexVal a2 = some xa2) :
    ∃ c, colorParse ['#', r1, r2, g1, g2, b1, b2, a1, a2] = .ok (some c) ∧
      NearColor c ((16 * xr1 + xr2) / 255) ((16 * xg1 + xg2) / 255) ((16 * xb1 + xb2) / 255)
        ((16 * xa1 + xa2) / 255) := by
  refine ⟨_, parse_eight h1 h2 h3 h4 h5 h6 h7 h8, ?_, ?_, ?_, ?_⟩
  · exact_mod_cast channel_near (16 * xr1 + xr2) (by have := (hex_info h1).1; have := (hex_info h2).1; omega)
  · exact_mod_cast channel_near (16 * xg1 + xg2) (by have := (hex_info h3).1; have := (hex_info h4).1; omega)
  · exact_mod_cast channel_near (16 * xb1 + xb2) (by have := (hex_info h5).1; have := (hex_info h6).1; omega)
  · exact_mod_cast channel_near (16 * xa1 + xa2) (by have := (hex_info h7).1; have := (hex_info h8).1; omega)

/-- C27: the channels of `#rgb` are the digits divided by 15, and it prints as the six digit colour with the digits
doubled. -/
theorem C27_parse_short {r g b : Char} {xr xg xb : Nat}
    (h1 : hexVal r = some xr) (h2 : hexVal g = some xg) (h3 : hexVal b = some xb) :
    ∃ c, colorParse ['#', r, g, b] = .ok (some c) ∧ c.a = 1 ∧ NearColor c (xr / 15) (xg / 15) (xb / 15) 1 ∧
      colorHexStr c false = ['#', r.toLower, r.toLower, g.toLower, g.toLower, b.toLower, b.toLower] := by
  obtain ⟨l1, -, -, -, -, p1⟩ := hex_info h1
  obtain ⟨l2, -, -, -, -, p2⟩ := hex_info h2
  obtain ⟨l3, -, -, -, -, p3⟩ := hex_info h3
  refine ⟨_, parse_three h1 h2 h3, rfl, ⟨short_near _ l1, short_near _ l2, short_near _ l3, by norm_num⟩, ?_⟩
  have dbl : ∀ n : Nat, n < 16 → hexPad2 ((17 * n : ℕ) : ℤ) = [hexDigit n, hexDigit n] := by decide +kernel
  have d1 := dbl _ l1
  have d2 := dbl _ l2
  have d3 := dbl _ l3
  rw [← short_trunc _ l1, p1] at d1
  rw [← short_trunc _ l2, p2] at d2
  rw [← short_trunc _ l3, p3] at d3
  simp [colorHexStr, d1, d2, d3]

theorem pad_pair {a b : Char} {x y : Nat} (ha : hexVal a = some x) (hb : hexVal b = some y) :
    hexPad2 (truncZ (f32Div (16 * x + y) 255 * 255)) = [a.toLower, b.toLower] := by
  obtain ⟨l1, -, -, -, -, p1⟩ := hex_info ha
  obtain ⟨l2, -, -, -, -, p2⟩ := hex_info hb
  have hn : 16 * x + y < 256 := by omega
  rw [channel_trunc _ hn, hexPad2_byte _ hn, ← p1, ← p2]
  have e1 : (16 * x + y) / 16 = x := by omega
  have e2 : (16 * x + y) % 16 = y := by omega
  rw [e1, e2]

/-- C27: printing the colour read from `#rrggbb` gives the same text in lower case. -/
theorem C27_round_trip {r1 r2 g1 g2 b1 b2 : Char} {xr1 xr2 xg1 xg2 xb1 xb2 : Nat}
    (h1 : hexVal r1 = some xr1) (h2 : hexVal r2 = some xr2) (h3 : hexVal g1 = some xg1) (h4 : hexVal g2 = some xg2)
    (h5 : hexVal b1 = some xb1) (h6 : hexVal b2 = some xb2) :
    ∃ c, colorParse ['#', r1, r2, g1, g2, b1, b2] = .ok (some c) ∧
      colorHexStr c false = ['#', r1, r2, g1, g2, b1, b2].map Char.toLower := by
  refine ⟨_, parse_six h1 h2 h3 h4 h5 h6, ?_⟩
  simp [colorHexStr, pad_pair h1 h2, pad_pair h3 h4, pad_pair h5 h6]

/-- C27: likewise with opacity. -/
theorem C27_round_trip_alpha {r1 r2 g1 g2 b1 b2 a1 a2 : Char} {xr1 xr2 xg1 xg2 xb1 xb2 xa1 xa2 : Nat}
    (h1 : hexVal r1 = some xr1) (h2 : hexVal r2 = some xr2) (h3 : hexVal g1 = some xg1) (h4 : hexVal g2 = some xg2)
    (h5 : hexVal b1 = some xb1) (h6 : hexVal b2 = some xb2) (h7 : hexVal a1 = some xa1) (h8 : hexVal a2 = some xa2) :
    ∃ c, colorParse ['#', r1, r2, g1, g2, b1, b2, a1, a2] = .ok (some c) ∧
      colorHexStr c true = ['#', r1, r2, g1, g2, b1, b2, a1, a2].map Char.toLower := by
  refine ⟨_, parse_eight h1 h2 h3 h4 h5 h6 h7 h8, ?_⟩
  simp [colorHexStr, pad_pair h1 h2, pad_pair h3 h4, pad_pair h5 h6, pad_pair h7 h8]

/-- C27: black and white are exact. -/
theorem C27_extremes :
    colorParse "#ffffff".toList = .ok (some ⟨1, 1, 1, 1⟩) ∧ colorParse "#000000".toList = .ok (some ⟨0, 0, 0, 1⟩) ∧
    colorParse "#fff".toList = .ok (some ⟨1, 1, 1, 1⟩) ∧ colorParse "#000".toList = .ok (some ⟨0, 0, 0, 1⟩) := by
  have hf : hexVal 'f' = some 15 := by decide
  have h0 : hexVal '0' = some 0 := by decide
  obtain ⟨e1, e2, e3, e4⟩ := f32_one
  refine ⟨?_, ?_, ?_, ?_⟩
  · rw [show "#ffffff".toList = ['#', 'f', 'f', 'f', 'f', 'f', 'f'] from rfl, parse_six hf hf hf hf hf hf]
    norm_num [e1]
  · rw [show "#000000".toList = ['#', '0', '0', '0', '0', '0', '0'] from rfl, parse_six h0 h0 h0 h0 h0 h0]
    norm_num [e3]
  · rw [show "#fff".toList = ['#', 'f', 'f', 'f'] from rfl, parse_three hf hf hf, e2]
  · rw [show "#000".toList = ['#', '0', '0', '0'] from rfl, parse_three h0 h0 h0, e4]

/-- C27: as a colour in a document, a `#` text of another length is refused, and so is a word that is no number. -/
theorem C27_refused_partial (stod : Str → Option (ℝ × Nat)) (palette : List Color) (old : Color) (s : Str) :
    (∀ t, s = '#' :: t → t.length ≠ 3 → t.length ≠ 6 → t.length ≠ 8 →
      exprToColor stod palette old (.literal s) = .error .invalidColor) ∧
    (∀ c t, s = c :: t → c ≠ '#' → (∃ d ∈ s, ¬ TextSpec.Digit d) →
      exprToColor stod palette old (.literal s) = .error .invalidColor) := by
  constructor
  · rintro t rfl h1 h2 h3
    have hd : isDigitText ('#' :: t) = false := by simp [isDigitText, cIsDigit]
    simp [exprToColor, Expr.getValue, beginsWith, colorParse, h1, h2, h3, hd]
  · rintro c t rfl hc ⟨d, hd, hn⟩
    have hb : beginsWith (c :: t) ['#'] = false := by simp [beginsWith, hc]
    have hdd : isDigitText (c :: t) = false := by
      rw [isDigitText, List.all_eq_false]
      refine ⟨d, hd, ?_⟩
      simpa [cIsDigit, TextSpec.Digit] using hn
    simp [exprToColor, Expr.getValue, hb, hdd]

/-- A character at which `std::stoi` can find no number. -/
def NoNumber (c : Char) : Prop := hexVal c = none ∧ isSpaceC c = false ∧ c ≠ '-' ∧ c ≠ '+'

/-- C27, violated by the code: if the first channel of a `#` colour begins with a character that is no hexadecimal
digit (nor blank nor sign), an exception escapes instead of an error being returned. -/
theorem C27_nonhex_throws (stod : Str → Option (ℝ × Nat)) (palette : List Color) (old : Color) (c : Char) (t : Str)
    (hc : NoNumber c) (hl : t.length = 2 ∨ t.length = 5 ∨ t.length = 7) :
    exprToColor stod palette old (.literal ('#' :: c :: t)) = .thrown := by
  obtain ⟨h1, h2, h3, h4⟩ := hc
  have h1' : hexDigitVal c = none := by
    revert h1; unfold hexVal hexDigitVal
    repeat' split
    all_goals simp
  have h0 : c ≠ '0' := by rintro rfl; exact absurd h1 (by decide)
  have hst : ∀ r, stoi16 (c :: r) = none := by
    intro r; simp [stoi16, h2, h3, h4, h1', h0]
  have hb : beginsWith ('#' :: c :: t) ['#'] = true := by simp [beginsWith]
  have hch : ∀ w, 0 < w → ∀ d, hexChannel (((('#' :: c :: t) : Str).drop 1).take w) d = none := by
    intro w hw d
    obtain ⟨w, rfl⟩ : ∃ k, w = k + 1 := ⟨w - 1, by omega⟩
    simp [hexChannel, hst]
  have hp : colorParse ('#' :: c :: t) = .thrown := by
    rcases hl with h | h | h <;>
      simp [colorParse, hb, h, colorChannels, hexChannel, hst]
  simp [exprToColor, Expr.getValue, hb, hp]

theorem hexDigitVal_eq (c : Char) : hexDigitVal c = hexVal c := by
  cases h : hexVal c with
  | some x => exact (hex_info h).2.1
  | none =>
    revert h; unfold hexVal hexDigitVal
    repeat' split
    all_goals simp

/-- What every two characters mean as a channel: two hexadecimal digits are a number from 0 to 255;
a digit followed by anything else is the digit, and a blank or a sign before a digit is accepted, even
a minus. -/
theorem channel_text (a b : Char) :
    stoi16 [a, b] =
      match hexVal a, hexVal b with
      | some x, some y => some ((16 * x + y : ℕ) : ℤ)
      | some x, none => some (x : ℤ)
      | none, some y => if a = '-' then some (-(y : ℤ)) else if a = '+' ∨ isSpaceC a then some (y : ℤ) else none
      | none, none => none := by
  cases ha : hexVal a with
  | some x =>
    obtain ⟨h1, h2, h3, h4, h5, h6⟩ := hex_info ha
    cases hb : hexVal b with
    | some y => exact stoi16_two ha hb
    | none =>
      have hb' : hexDigitVal b = none := by rw [hexDigitVal_eq, hb]
      simp [stoi16, h3, h4, h5, h2, hexRead, hb']
  | none =>
    have ha' : hexDigitVal a = none := by rw [hexDigitVal_eq, ha]
    by_cases hm : a = '-'
    · subst hm
      cases hb : hexVal b with
      | some y =>
        obtain ⟨h1, h2, h3, h4, h5, h6⟩ := hex_info hb
        simp [stoi16, show isSpaceC '-' = false from rfl, h2, hexRead]
      | none =>
        have hb' : hexDigitVal b = none := by rw [hexDigitVal_eq, hb]
        simp [stoi16, show isSpaceC '-' = false from rfl, hb']
    · by_cases hp : a = '+'
      · subst hp
        cases hb : hexVal b with
        | some y =>
          obtain ⟨h1, h2, h3, h4, h5, h6⟩ := hex_info hb
          simp [stoi16, show isSpaceC '+' = false from rfl, h2, hexRead]
        | none =>
          have hb' : hexDigitVal b = none := by rw [hexDigitVal_eq, hb]
          simp [stoi16, show isSpaceC '+' = false from rfl, hb']
      · by_cases hs : isSpaceC a = true
        · cases hb : hexVal b with
          | some y =>
            simp only [hm, hp, hs, if_false, or_true, if_true]
            have := stoi16_one hb
            obtain ⟨h1, h2, h3, h4, h5, h6⟩ := hex_info hb
            simp only [stoi16, List.dropWhile_cons, hs, h3, if_true, Bool.false_eq_true, if_false] at this ⊢
            exact this
          | none =>
            have hb' : hexDigitVal b = none := by rw [hexDigitVal_eq, hb]
            by_cases hbs : isSpaceC b = true
            · simp [stoi16, hs, hbs]
            · by_cases e1 : b = '-'
              · subst e1; simp [stoi16, hs, show isSpaceC '-' = false from rfl]
              · by_cases e2 : b = '+'
                · subst e2; simp [stoi16, hs, show isSpaceC '+' = false from rfl]
                · simp [stoi16, hs, hbs, e1, e2, hb']
        · have : a ≠ '0' := by rintro rfl; exact absurd ha (by decide)
          cases hb : hexVal b with
          | some y => simp [stoi16, hs, hm, hp, ha', this]
          | none => simp [stoi16, hs, hm, hp, ha', this]

/-- C27, violated by the code: `#-y....` with a digit `y` other than 0 is accepted, with a negative red channel. -/
theorem C27_negative {y g1 g2 b1 b2 : Char} {v xg1 xg2 xb1 xb2 : Nat} (hy : hexVal y = some v) (hv : v ≠ 0)
    (h3 : hexVal g1 = some xg1) (h4 : hexVal g2 = some xg2) (h5 : hexVal b1 = some xb1) (h6 : hexVal b2 = some xb2) :
    ∃ c, colorParse ['#', '-', y, g1, g2, b1, b2] = .ok (some c) ∧ c.r < 0 ∧ |c.r + v / 255| ≤ 1 / 2 ^ 24 := by
  have hst : stoi16 ['-', y] = some (-(v : ℤ)) := by
    have := channel_text '-' y
    rw [show hexVal '-' = none from by decide, hy] at this
    simpa using this
  have hch : hexChannel ['-', y] 255 = some (-f32Div v 255) := by
    simp only [hexChannel, hst, Option.map_some]
    rw [if_pos (by omega)]
    simp
  have hlt := (hex_info hy).1
  have hn := channel_near v (by omega)
  refine ⟨⟨-f32Div v 255, f32Div (16 * xg1 + xg2) 255, f32Div (16 * xb1 + xb2) 255, 1⟩, ?_, ?_, ?_⟩
  · simp [colorParse, beginsWith, colorChannels, hch, hexChannel_two h3 h4, hexChannel_two h5 h6]
  · have h1 : (1 : ℝ) ≤ v := by exact_mod_cast Nat.one_le_iff_ne_zero.2 hv
    have := (abs_le.1 hn).1
    have : (0 : ℝ) < f32Div v 255 := by
      have : (1 : ℝ) / 255 ≤ v / 255 := by linarith
      norm_num at *
      linarith
    simp only
    linarith
  · rw [show -f32Div v 255 + (v : ℝ) / 255 = -(f32Div v 255 - v / 255) by ring, abs_neg]
    exact hn

/-- C27: the test for black (which leaves the colour out of a drawing) holds exactly for the colours that are printed
as `#000000`, if the colour was read from `#rrggbb`. -/
theorem C27_is_black {r1 r2 g1 g2 b1 b2 : Char} {xr1 xr2 xg1 xg2 xb1 xb2 : Nat}
    (h1 : hexVal r1 = some xr1) (h2 : hexVal r2 = some xr2) (h3 : hexVal g1 = some xg1) (h4 : hexVal g2 = some xg2)
    (h5 : hexVal b1 = some xb1) (h6 : hexVal b2 = some xb2) :
    ∃ c, colorParse ['#', r1, r2, g1, g2, b1, b2] = .ok (some c) ∧
      (colorIsBlack c ↔ ['#', r1, r2, g1, g2, b1, b2] = "#000000".toList) := by
  refine ⟨_, parse_six h1 h2 h3 h4 h5 h6, ?_⟩
  have zero : ∀ {a b : Char} {x y : Nat}, hexVal a = some x → hexVal b = some y →
      (f32Div (16 * x + y) 255 = 0 ↔ a = '0' ∧ b = '0') := by
    intro a b x y ha hb
    obtain ⟨l1, -, -, -, -, p1⟩ := hex_info ha
    obtain ⟨l2, -, -, -, -, p2⟩ := hex_info hb
    constructor
    · intro h
      have hn := channel_near (16 * x + y) (by omega)
      rw [h, zero_sub, abs_neg, abs_of_nonneg (by positivity)] at hn
      have : 16 * x + y = 0 := by
        by_contra hne
        have h1 : (1 : ℝ) ≤ ((16 * x + y : ℕ) : ℝ) := by exact_mod_cast Nat.one_le_iff_ne_zero.2 hne
        have : (1 : ℝ) / 255 ≤ ((16 * x + y : ℕ) : ℝ) / 255 := by linarith
        norm_num at *
        linarith
      have e1 : x = 0 := by omega
      have e2 : y = 0 := by omega
      subst e1 e2
      have key : ∀ c ∈ "0123456789abcdefABCDEF".toList, hexVal c = some 0 → c = '0' := by decide
      exact ⟨key a (hexVal_mem a 0 ha) ha, key b (hexVal_mem b 0 hb) hb⟩
    · rintro ⟨rfl, rfl⟩
      rw [show hexVal '0' = some 0 from by decide] at ha hb
      cases ha; cases hb
      exact f32_one.2.2.1
  rw [show "#000000".toList = ['#', '0', '0', '0', '0', '0', '0'] from rfl]
  simp only [colorIsBlack, zero h1 h2, zero h3 h4, zero h5 h6, List.cons.injEq, and_true, true_and]
  tauto

example : NoNumber 'z' := by unfold NoNumber; decide
example : hexVal 'a' = some 10 ∧ hexVal 'F' = some 15 := by decide

/-! ## C28: colour maps -/

theorem lastNotAfter_spec (v : ℝ) (ss : List (ℝ × Color)) (hs : ss.Pairwise fun a b => a.1 ≤ b.1) :
    ∀ prev, (∀ p, prev = some p → p.1 ≤ v ∧ ∀ s ∈ ss, p.1 ≤ s.1) →
    match lastNotAfter v prev ss with
    | none => prev = none ∧ ∀ s ∈ ss, v < s.1
    | some r => (r ∈ ss ∨ prev = some r) ∧ r.1 ≤ v ∧ ∀ s ∈ ss, s.1 ≤ v → s.1 ≤ r.1 := by
  induction ss with
  | nil =>
    intro prev hp
    cases prev with
    | none => exact ⟨rfl, by simp⟩
    | some p => exact ⟨.inr rfl, (hp p rfl).1, by simp⟩
  | cons s ss ih =>
    intro prev hp
    rw [List.pairwise_cons] at hs
    simp only [lastNotAfter]
    split_ifs with hlt
    · cases prev with
      | none =>
        refine ⟨rfl, fun x hx => ?_⟩
        rcases List.mem_cons.1 hx with rfl | hx
        · exact hlt
        · exact lt_of_lt_of_le hlt (hs.1 x hx)
      | some p =>
        refine ⟨.inr rfl, (hp p rfl).1, fun x hx hxv => ?_⟩
        rcases List.mem_cons.1 hx with rfl | hx
        · exact absurd hxv (not_le.2 hlt)
        · exact absurd hxv (not_le.2 (lt_of_lt_of_le hlt (hs.1 x hx)))
    · have := ih hs.2 (some s) (by rintro p ⟨⟩; exact ⟨not_lt.1 hlt, hs.1⟩)
      revert this
      cases hr : lastNotAfter v (some s) ss with
      | none => intro h; exact absurd h.1 (by simp)
      | some r =>
        rintro ⟨h1, h2, h3⟩
        have hsr : s.1 ≤ r.1 := by
          rcases h1 with h1 | h1
          · exact hs.1 r h1
          · rw [Option.some.inj h1]
        refine ⟨.inl ?_, h2, ?_⟩
        · rcases h1 with h1 | h1
          · exact List.mem_cons_of_mem _ h1
          · rw [← Option.some.inj h1]; simp
        · intro x hx hxv
          rcases List.mem_cons.1 hx with rfl | hx
          · exact hsr
          · exact h3 x hx hxv

/-- C28: a step map gives a value in [0,1] the colour of the last step that is not above it, and black below all
steps. -/
theorem C28_steps (stod : Str → Option (ℝ × Nat)) (steps sorted : List (ℝ × Color)) (hs : SortedStops steps sorted)
    (s : Str) (v : ℝ) (n : Nat) (h : stod s = some (v, n)) (h0 : 0 ≤ v) (h1 : v ≤ 1) :
    ∃ c, stepsMap stod sorted s = .ok c ∧
      ((∀ p ∈ steps, v < p.1) → c = .black) ∧
      ((∃ p ∈ steps, p.1 ≤ v) → ∃ p ∈ steps, c = p.2 ∧ p.1 ≤ v ∧ ∀ q ∈ steps, q.1 ≤ v → q.1 ≤ p.1) := by
  have hc := (clamp01_mem v).2.2 h0 h1
  have hsp := lastNotAfter_spec v sorted hs.2 none (by simp)
  simp only [stepsMap, h, hc]
  cases sorted with
  | nil =>
    have : steps = [] := List.Perm.eq_nil (hs.1.symm)
    subst this
    exact ⟨.black, rfl, fun _ => rfl, by simp⟩
  | cons a l =>
    simp only [List.isEmpty_cons]
    revert hsp
    cases lastNotAfter v none (a :: l) with
    | none =>
      rintro ⟨-, h2⟩
      refine ⟨.black, rfl, fun _ => rfl, ?_⟩
      rintro ⟨p, hp, hpv⟩
      exact absurd hpv (not_le.2 (h2 p (hs.1.mem_iff.2 hp)))
    | some r =>
      rintro ⟨h1, h2, h3⟩
      have hr : r ∈ steps := by
        rcases h1 with h1 | h1
        · exact hs.1.mem_iff.1 h1
        · exact absurd h1 (by simp)
      refine ⟨r.2, rfl, fun hall => absurd h2 (not_le.2 (hall r hr)), fun _ => ⟨r, hr, rfl, h2, ?_⟩⟩
      intro q hq
      exact h3 q (hs.1.mem_iff.2 hq)

theorem lowerBound_spec (v : ℝ) (ss : List (ℝ × Color)) (hs : ss.Pairwise fun a b => a.1 ≤ b.1) :
    ∀ prev, (∀ p, prev = some p → p.1 < v) →
    match lowerBound v prev ss with
    | none => ∀ s ∈ ss, s.1 < v
    | some (p, s) => s ∈ ss ∧ v ≤ s.1 ∧ (∀ x ∈ ss, v ≤ x.1 → s.1 ≤ x.1) ∧
        (p = prev ∧ (∀ x ∈ ss, v ≤ x.1) ∨ ∃ q ∈ ss, p = some q ∧ q.1 < v ∧ ∀ x ∈ ss, x.1 < v → x.1 ≤ q.1) := by
  induction ss with
  | nil => intro prev hp; simp [lowerBound]
  | cons s ss ih =>
    intro prev hp
    rw [List.pairwise_cons] at hs
    simp only [lowerBound]
    split_ifs with hlt
    · have := ih hs.2 (some s) (by rintro p ⟨⟩; exact hlt)
      revert this
      cases lowerBound v (some s) ss with
      | none =>
        intro h x hx
        rcases List.mem_cons.1 hx with rfl | hx
        · exact hlt
        · exact h x hx
      | some r =>
        obtain ⟨p, t⟩ := r
        rintro ⟨h1, h2, h3, h4⟩
        refine ⟨List.mem_cons_of_mem _ h1, h2, ?_, .inr ?_⟩
        · intro x hx hv
          rcases List.mem_cons.1 hx with rfl | hx
          · exact absurd hv (not_le.2 hlt)
          · exact h3 x hx hv
        · rcases h4 with ⟨rfl, h4⟩ | ⟨q, hq, rfl, hqv, h4⟩
          · refine ⟨s, by simp, rfl, hlt, fun x hx hxv => ?_⟩
            rcases List.mem_cons.1 hx with rfl | hx
            · exact le_refl _
            · exact absurd hxv (not_lt.2 (h4 x hx))
          · refine ⟨q, List.mem_cons_of_mem _ hq, rfl, hqv, fun x hx hxv => ?_⟩
            rcases List.mem_cons.1 hx with rfl | hx
            · exact hs.1 q hq
            · exact h4 x hx hxv
    · have hv := not_lt.1 hlt
      have hall : ∀ x ∈ s :: ss, s.1 ≤ x.1 := by
        intro x hx
        rcases List.mem_cons.1 hx with rfl | hx
        · exact le_refl _
        · exact hs.1 x hx
      exact ⟨by simp, hv, fun x hx _ => hall x hx, .inl ⟨rfl, fun x hx => le_trans hv (hall x hx)⟩⟩

/-- The point dividing the way from `c0` to `c1` at `t`. -/
def colorBetween (c0 c1 : Color) (t : ℝ) : Color :=
  ⟨c0.r + t * (c1.r - c0.r), c0.g + t * (c1.g - c0.g), c0.b + t * (c1.b - c0.b), c0.a + t * (c1.a - c0.a)⟩

/-- C28: a gradient map is exact at its stops: a value at a stop gets the colour of a stop at that position. -/
theorem C28_gradient_stops (stod : Str → Option (ℝ × Nat)) (stops sorted : List (ℝ × Color))
    (hs : SortedStops stops sorted) (s : Str) (v : ℝ) (n : Nat) (h : stod s = some (v, n)) (h0 : 0 ≤ v) (h1 : v ≤ 1)
    (hv : ∃ p ∈ stops, p.1 = v) :
    ∃ p ∈ stops, p.1 = v ∧ gradientMap stod sorted s = .ok p.2 := by
  have hc := (clamp01_mem v).2.2 h0 h1
  have hsp := lowerBound_spec v sorted hs.2 none (by simp)
  obtain ⟨p, hp, hpv⟩ := hv
  have hps : p ∈ sorted := hs.1.mem_iff.2 hp
  simp only [gradientMap, h, hc]
  have hne : sorted.isEmpty = false := by cases sorted <;> simp_all
  revert hsp
  cases hl : lowerBound v none sorted with
  | none => intro hh; exact absurd (hh p hps) (by rw [hpv]; simp)
  | some r =>
    obtain ⟨prev, l1, c1⟩ := r
    rintro ⟨h2, h3, h4, -⟩
    have hl1 : l1 = v := le_antisymm (by rw [← hpv]; exact h4 p hps hpv.ge) h3
    refine ⟨(l1, c1), hs.1.mem_iff.1 h2, hl1, ?_⟩
    simp [hne, hl1, Color.mix]

/-- C28: between two neighbouring stops a gradient map is the linear interpolation of their colours. -/
theorem C28_gradient_between (stod : Str → Option (ℝ × Nat)) (stops sorted : List (ℝ × Color))
    (hs : SortedStops stops sorted) (s : Str) (v : ℝ) (n : Nat) (h : stod s = some (v, n)) (h0 : 0 ≤ v) (h1 : v ≤ 1)
    (hno : ∀ p ∈ stops, p.1 ≠ v) (hlo : ∃ p ∈ stops, p.1 < v) (hhi : ∃ p ∈ stops, v < p.1) :
    ∃ p ∈ stops, ∃ q ∈ stops, p.1 < v ∧ v < q.1 ∧ (∀ x ∈ stops, x.1 ≤ p.1 ∨ q.1 ≤ x.1) ∧
      gradientMap stod sorted s = .ok (colorBetween p.2 q.2 ((v - p.1) / (q.1 - p.1))) := by
  have hc := (clamp01_mem v).2.2 h0 h1
  have hsp := lowerBound_spec v sorted hs.2 none (by simp)
  obtain ⟨a, ha, hav⟩ := hlo
  obtain ⟨b, hb, hbv⟩ := hhi
  have ha' : a ∈ sorted := hs.1.mem_iff.2 ha
  have hb' : b ∈ sorted := hs.1.mem_iff.2 hb
  simp only [gradientMap, h, hc]
  have hne : sorted.isEmpty = false := by cases sorted <;> simp_all
  revert hsp
  cases hl : lowerBound v none sorted with
  | none => intro hh; exact absurd (hh b hb') (not_lt.2 hbv.le)
  | some r =>
    obtain ⟨prev, l1, c1⟩ := r
    rintro ⟨h2, h3, h4, h5⟩
    rcases h5 with ⟨-, h5⟩ | ⟨q, hq, rfl, hqv, h5⟩
    · exact absurd (h5 a ha') (not_le.2 hav)
    have hq' := hs.1.mem_iff.1 hq
    have h2' := hs.1.mem_iff.1 h2
    have hlt : v < l1 := lt_of_le_of_ne h3 (fun e => hno _ h2' e.symm)
    refine ⟨q, hq', (l1, c1), h2', hqv, hlt, ?_, ?_⟩
    · intro x hx
      rcases lt_or_ge x.1 v with hxv | hxv
      · exact .inl (h5 x (hs.1.mem_iff.2 hx) hxv)
      · exact .inr (h4 x (hs.1.mem_iff.2 hx) hxv)
    · simp only [hne, Option.map_some, Option.getD_some, not_le.2 hlt, ge_iff_le, if_false, Bool.false_eq_true]
      congr 1
      ext <;> simp only [Color.mix, colorBetween] <;> ring

/-- C28: values outside of [0,1] are treated as the nearest end, and data that is not a number is refused. -/
theorem C28_clamp (stod : Str → Option (ℝ × Nat)) (sorted : List (ℝ × Color)) (s t : Str) (v w : ℝ) (n m : Nat)
    (h : stod s = some (v, n)) (h' : stod t = some (w, m)) (hw : v < 0 ∧ w = 0 ∨ 1 < v ∧ w = 1) :
    stepsMap stod sorted s = stepsMap stod sorted t ∧ gradientMap stod sorted s = gradientMap stod sorted t := by
  have hc : clamp01 v = clamp01 w := by
    rcases hw with ⟨h, rfl⟩ | ⟨h, rfl⟩
    · simp [clamp01, h]
    · simp [clamp01, h, not_lt.2 (by linarith : (0 : ℝ) ≤ v)]
  simp only [stepsMap, gradientMap, h, h', hc, and_self]

theorem C28_invalid (stod : Str → Option (ℝ × Nat)) (sorted : List (ℝ × Color)) (s : Str) (h : stod s = none)
    (hne : sorted ≠ []) :
    stepsMap stod sorted s = .error .invalidData ∧ gradientMap stod sorted s = .error .invalidData := by
  have : sorted.isEmpty = false := by cases sorted <;> simp_all
  simp [stepsMap, gradientMap, h, this]

/-- C28, violated by the code: above the last stop a gradient reads past the end of its stops (undefined behaviour)
instead of giving a colour. -/
theorem C28_gradient_above (stod : Str → Option (ℝ × Nat)) (stops sorted : List (ℝ × Color))
    (hs : SortedStops stops sorted) (s : Str) (v : ℝ) (n : Nat) (h : stod s = some (v, n)) (h0 : 0 ≤ v) (h1 : v ≤ 1)
    (hne : stops ≠ []) (hall : ∀ p ∈ stops, p.1 < v) :
    gradientMap stod sorted s = .undefined := by
  have hc := (clamp01_mem v).2.2 h0 h1
  have hsp := lowerBound_spec v sorted hs.2 none (by simp)
  simp only [gradientMap, h, hc]
  have hne' : sorted.isEmpty = false := by
    cases sorted with
    | nil => exact absurd hs.1.symm.eq_nil hne
    | cons => rfl
  revert hsp
  cases hl : lowerBound v none sorted with
  | none => intro _; simp [hne']
  | some r =>
    rintro ⟨h2, h3, -⟩
    exact absurd (hall _ (hs.1.mem_iff.1 h2)) (not_lt.2 h3)

/-- C28: below the first stop, a gradient interpolates from black at 0. -/
theorem C28_gradient_below (stod : Str → Option (ℝ × Nat)) (stops sorted : List (ℝ × Color))
    (hs : SortedStops stops sorted) (s : Str) (v : ℝ) (n : Nat) (h : stod s = some (v, n)) (h0 : 0 ≤ v) (h1 : v ≤ 1)
    (hne : stops ≠ []) (hall : ∀ p ∈ stops, v < p.1) :
    ∃ q ∈ stops, (∀ x ∈ stops, q.1 ≤ x.1) ∧ gradientMap stod sorted s = .ok (colorBetween .black q.2 (v / q.1)) := by
  have hc := (clamp01_mem v).2.2 h0 h1
  have hsp := lowerBound_spec v sorted hs.2 none (by simp)
  simp only [gradientMap, h, hc]
  have hne' : sorted.isEmpty = false := by
    cases sorted with
    | nil => exact absurd hs.1.symm.eq_nil hne
    | cons => rfl
  revert hsp
  cases hl : lowerBound v none sorted with
  | none =>
    intro hh
    obtain ⟨p, hp⟩ := List.exists_mem_of_ne_nil _ hne
    exact absurd (hh p (hs.1.mem_iff.2 hp)) (not_lt.2 (hall p hp).le)
  | some r =>
    obtain ⟨prev, l1, c1⟩ := r
    rintro ⟨h2, h3, h4, h5⟩
    have h2' := hs.1.mem_iff.1 h2
    have hlt : v < l1 := hall _ h2'
    rcases h5 with ⟨rfl, -⟩ | ⟨q, hq, -, hqv, -⟩
    · refine ⟨(l1, c1), h2', fun x hx => h4 x (hs.1.mem_iff.2 hx) (hall x hx).le, ?_⟩
      simp only [hne', Option.map_none, Option.getD_none, not_le.2 hlt, ge_iff_le, if_false, Bool.false_eq_true,
        sub_zero]
      congr 1
      ext <;> simp only [Color.mix, colorBetween, Color.black] <;> ring
    · exact absurd hqv (not_lt.2 (hall q (hs.1.mem_iff.1 hq)).le)

/-- Stops that meet the hypotheses: sorted, one below and one above. -/
example : SortedStops [((1 : ℝ), Color.black), (0, ⟨1, 1, 1, 1⟩)] [((0 : ℝ), ⟨1, 1, 1, 1⟩), (1, Color.black)] :=
  ⟨List.Perm.swap _ _ _, by simp⟩

/-! ## C71: palette colours and colour lists -/

theorem stolDigits_some {limit : Nat} {s : Str} (h : s ≠ []) (hl : digitsVal s < limit) :
    stolDigits limit s = some (digitsVal s) := by
  cases s with
  | nil => exact absurd rfl h
  | cons c t => simp [stolDigits, hl]

theorem no_hash {s : Str} (hd : ∀ c ∈ s, TextSpec.Digit c) : beginsWith s ['#'] = false ∧ isDigitText s = true := by
  constructor
  · cases s with
    | nil => rfl
    | cons c t =>
      have : c ≠ '#' := by rintro rfl; exact absurd (hd '#' (by simp)) (by unfold TextSpec.Digit; decide)
      simp [beginsWith, this]
  · rw [isDigitText, List.all_eq_true]
    intro c hc
    simpa [cIsDigit, TextSpec.Digit] using hd c hc

theorem digits_iff (s : Str) (n : Nat) : TextSpec.Digits s n ↔ (∀ c ∈ s, TextSpec.Digit c) ∧ digitsVal s = n := by
  constructor
  · intro h
    induction h with
    | nil => exact ⟨by simp, rfl⟩
    | @snoc s c n _ hc ih =>
      refine ⟨?_, ?_⟩
      · intro d hd
        rcases List.mem_append.1 hd with h | h
        · exact ih.1 d h
        · rw [List.mem_singleton.1 h]; exact hc
      · unfold digitsVal at ih ⊢
        rw [List.foldl_append, ih.2, List.foldl_cons, List.foldl_nil, Nat.mul_comm]
        rfl
  · rintro ⟨h, rfl⟩
    induction s using List.reverseRecOn with
    | nil => exact .nil
    | append_singleton s c ih =>
      have h1 := ih fun d hd => h d (List.mem_append_left _ hd)
      have h2 := TextSpec.Digits.snoc h1 (h c (by simp))
      have : digitsVal (s ++ [c]) = 10 * digitsVal s + (c.toNat - '0'.toNat) := by
        unfold digitsVal
        rw [List.foldl_append, List.foldl_cons, List.foldl_nil, Nat.mul_comm]
        rfl
      rw [this]
      exact h2

/-- C71: the number `n ≥ 1` as a colour means the `n`-th colour of the palette, starting over at its end. -/
theorem C71_index (stod : Str → Option (ℝ × Nat)) (palette : List Color) (old : Color) (s : Str) (n : Nat)
    (hd : TextSpec.Digits s n) (h1 : 1 ≤ n) (h2 : n < 2 ^ 63) (hp : palette ≠ []) :
    ∃ c, exprToColor stod palette old (.literal s) = .ok c ∧ palette[(n - 1) % palette.length]? = some c := by
  obtain ⟨hd, hn⟩ := (digits_iff s n).1 hd
  have hne : s ≠ [] := by rintro rfl; rw [show digitsVal [] = 0 from rfl] at hn; omega
  obtain ⟨hb, ht⟩ := no_hash hd
  have hpe : palette.isEmpty = false := by cases palette <;> simp_all
  have hl : 0 < palette.length := List.length_pos_iff.2 hp
  have hm : (digitsVal s + 2 ^ 64 - 1) % 2 ^ 64 = n - 1 := by omega
  have hi : (n - 1) % palette.length < palette.length := Nat.mod_lt _ hl
  refine ⟨palette[(n - 1) % palette.length], ?_, List.getElem?_eq_getElem hi⟩
  simp only [exprToColor, Expr.getValue, hb, ht, hpe, stolDigits_some hne (hn ▸ h2), hm]
  simp [List.getElem?_eq_getElem hi]

/-- `12` is the twelfth colour. -/
example : TextSpec.Digits "12".toList 12 :=
  .snoc (s := ['1']) (.snoc (s := []) .nil (by unfold TextSpec.Digit; decide)) (by unfold TextSpec.Digit; decide)

/-- C71, violated by the code: where colours are read from data, the number `n` means the colour that is number
`n + 1` in a document. -/
theorem C71_data_index (palette : List Color) (old : Color) (s : Str) (n : Nat)
    (hd : TextSpec.Digits s n) (hne : s ≠ []) (h2 : n < 2 ^ 64) (hp : palette ≠ []) :
    ∃ c, colorReadString palette old s = .ok c ∧ palette[n % palette.length]? = some c := by
  obtain ⟨hd, hn⟩ := (digits_iff s n).1 hd
  obtain ⟨hb, ht⟩ := no_hash hd
  have hpe : palette.isEmpty = false := by cases palette <;> simp_all
  have hl : 0 < palette.length := List.length_pos_iff.2 hp
  have hi : n % palette.length < palette.length := Nat.mod_lt _ hl
  refine ⟨palette[n % palette.length], ?_, List.getElem?_eq_getElem hi⟩
  simp only [colorReadString, hb, ht, hpe, stolDigits_some hne (hn ▸ h2), hn]
  simp [List.getElem?_eq_getElem hi]

/-- C71, violated by the code: the colour `0` is not refused but means the fourth of six colours; an empty text and
a number of 2^63 or more raise an exception. -/
theorem C71_bad_index (stod : Str → Option (ℝ × Nat)) (c1 c2 c3 c4 c5 c6 old : Color) (palette : List Color)
    (hp : palette ≠ []) :
    exprToColor stod [c1, c2, c3, c4, c5, c6] old (.literal ['0']) = .ok c4 ∧
    exprToColor stod palette old (.literal []) = .thrown ∧
    (∀ s n, TextSpec.Digits s n → 2 ^ 63 ≤ n → exprToColor stod palette old (.literal s) = .thrown) := by
  have hpe : palette.isEmpty = false := by cases palette <;> simp_all
  refine ⟨?_, ?_, ?_⟩
  · simp [exprToColor, Expr.getValue, beginsWith, isDigitText, cIsDigit, stolDigits, digitsVal]
  · simp [exprToColor, Expr.getValue, beginsWith, isDigitText, hpe, stolDigits]
  · intro s n hd hbig
    obtain ⟨hd, hn⟩ := (digits_iff s n).1 hd
    obtain ⟨hb, ht⟩ := no_hash hd
    have hs : stolDigits (2 ^ 63) s = none := by
      unfold stolDigits
      split
      · rfl
      · simp only [hn, not_lt.2 hbig, if_false]
    simp only [exprToColor, Expr.getValue, hb, ht, hpe, hs]
    simp

/-- C71: `(rgb r g b)` and `(rgba r g b a)` are the colours with these components; other lists are refused. -/
theorem C71_lists (stod : Str → Option (ℝ × Nat)) (palette : List Color) (old : Color) (sr sg sb sa : Str)
    (r g b a : ℝ) (nr ng nb na : Nat) (hr : stod sr = some (r, nr)) (hg : stod sg = some (g, ng))
    (hb : stod sb = some (b, nb)) (ha : stod sa = some (a, na)) :
    exprToColor stod palette old (.list [.literal "rgb".toList, .literal sr, .literal sg, .literal sb]) =
      .ok ⟨r, g, b, 1⟩ ∧
    exprToColor stod palette old (.list [.literal "rgba".toList, .literal sr, .literal sg, .literal sb, .literal sa]) =
      .ok ⟨r, g, b, a⟩ ∧
    (∀ es, (∀ x y z, es ≠ [.literal "rgb".toList, x, y, z] ∧ es ≠ [.value "rgb".toList, x, y, z]) →
      (∀ x y z w, es ≠ [.literal "rgba".toList, x, y, z, w] ∧ es ≠ [.value "rgba".toList, x, y, z, w]) →
      exprToColor stod palette old (.list es) = .error .invalidColor) := by
  refine ⟨?_, ?_, ?_⟩
  · simp [exprToColor, exprToColorList, Expr.isValue, Expr.getValue, exprToFloats, exprToFloat, hr, hg, hb]
  · simp [exprToColor, exprToColorList, Expr.isValue, Expr.getValue, exprToFloats, exprToFloat, hr, hg, hb, ha]
  · intro es h3 h4
    have : exprToColorList stod es = .error .invalidColor := by
      unfold exprToColorList
      split
      · next h x y z =>
        rw [if_neg]
        intro hh
        obtain ⟨i1, i2⟩ := Bool.and_eq_true_iff.1 hh
        cases h with
        | list l => exact absurd i1 (by simp [Expr.isValue])
        | literal l => simp only [Expr.getValue, beq_iff_eq] at i2; subst i2; exact (h3 x y z).1 rfl
        | value l => simp only [Expr.getValue, beq_iff_eq] at i2; subst i2; exact (h3 x y z).2 rfl
      · next h x y z w =>
        rw [if_neg]
        intro hh
        obtain ⟨i1, i2⟩ := Bool.and_eq_true_iff.1 hh
        cases h with
        | list l => exact absurd i1 (by simp [Expr.isValue])
        | literal l => simp only [Expr.getValue, beq_iff_eq] at i2; subst i2; exact (h4 x y z w).1 rfl
        | value l => simp only [Expr.getValue, beq_iff_eq] at i2; subst i2; exact (h4 x y z w).2 rfl
      · rfl
    simp [exprToColor, this]

theorem readStops_ok (stod : Str → Option (ℝ × Nat)) (palette : List Color) (ps : List (Expr × Expr))
    (stops : List (ℝ × Color))
    (h : List.Forall₂ (fun p s => exprToFloat stod p.1 = .ok s.1 ∧ exprToColor stod palette .black p.2 = .ok s.2)
      ps stops) :
    readStops stod palette (ps.flatMap fun p => [p.1, p.2]) = .ok stops := by
  induction h with
  | nil => rfl
  | cons h _ ih =>
    simp only [List.flatMap_cons, List.cons_append, List.nil_append, readStops, h.1, h.2, ih]

/-- C71: a colour map lists its stops in pairs of a position and a colour. -/
theorem C71_map_read (stod : Str → Option (ℝ × Nat)) (palette : List Color) (ps : List (Expr × Expr))
    (stops : List (ℝ × Color)) (rest : List Expr)
    (h : List.Forall₂ (fun p s => exprToFloat stod p.1 = .ok s.1 ∧ exprToColor stod palette .black p.2 = .ok s.2)
      ps stops) :
    colorMapRead stod palette (.list (.literal "gradient".toList :: ps.flatMap fun p => [p.1, p.2]) :: rest) =
      .ok (.gradient, stops) ∧
    colorMapRead stod palette (.list (.literal "steps".toList :: ps.flatMap fun p => [p.1, p.2]) :: rest) =
      .ok (.steps, stops) := by
  have hl : (ps.flatMap fun p => [p.1, p.2]).length % 2 = 0 := by
    clear h
    induction ps with
    | nil => rfl
    | cons p ps ih => rw [List.flatMap_cons, List.length_append]; simp only [List.length_cons, List.length_nil]; omega
  constructor <;>
    simp only [colorMapRead, Expr.isValue, Expr.getValue, hl, readStops_ok stod palette ps stops h] <;> simp

/-- C71: an odd number of arguments, another kind of map and a word are refused. -/
theorem C71_map_refused (stod : Str → Option (ℝ × Nat)) (palette : List Color) (rest : List Expr) :
    (∀ w es, es.length % 2 = 1 →
      ∃ e, colorMapRead stod palette (.list (.literal w :: es) :: rest) = .error e) ∧
    (∀ w es, w ≠ "gradient".toList → w ≠ "steps".toList →
      colorMapRead stod palette (.list (.literal w :: es) :: rest) = .error .invalidMap) ∧
    (∀ w, colorMapRead stod palette (.literal w :: rest) = .error .invalidMap) ∧
    colorMapRead stod palette [] = .error .invalidMap := by
  refine ⟨?_, ?_, ?_, rfl⟩
  · intro w es hl
    by_cases h1 : w = "gradient".toList
    · exact ⟨.noPairs, by simp [colorMapRead, Expr.isValue, Expr.getValue, h1, hl]⟩
    · by_cases h2 : w = "steps".toList
      · exact ⟨.noPairs, by simp [colorMapRead, Expr.isValue, Expr.getValue, h2, hl]⟩
      · refine ⟨.invalidMap, ?_⟩
        simp only [colorMapRead, Expr.isValue, Expr.getValue, beq_iff_eq, h1, h2, Bool.true_and, if_false]
  · intro w es h1 h2
    simp only [colorMapRead, Expr.isValue, Expr.getValue, beq_iff_eq, h1, h2, Bool.true_and, if_false]
  · intro w; rfl

/-- C71: the built-in palettes: their colours in order, all readable. -/
theorem C71_palettes (name : Str) (texts : List Str) (h : (name, texts) ∈ colorPalettes) :
    ∃ cs, colorPaletteDefault name = some cs ∧
      List.Forall₂ (fun t c => colorParse t = .ok (some c) ∧ colorHexStr c false = t) texts cs := by
  have key : ∀ t ∈ texts, ∃ c, colorParse t = .ok (some c) ∧ colorHexStr c false = t := by
    have hx : ∀ t ∈ texts, ∃ r1 r2 g1 g2 b1 b2, t = ['#', r1, r2, g1, g2, b1, b2] ∧
        (hexVal r1).isSome ∧ (hexVal r2).isSome ∧ (hexVal g1).isSome ∧ (hexVal g2).isSome ∧
        (hexVal b1).isSome ∧ (hexVal b2).isSome ∧ [ '#', r1, r2, g1, g2, b1, b2].map Char.toLower = t := by
      simp only [colorPalettes, List.mem_cons, List.not_mem_nil, or_false, Prod.mk.injEq] at h
      intro t ht
      rcases h with ⟨-, rfl⟩ | ⟨-, rfl⟩ <;>
        simp only [List.mem_cons, List.not_mem_nil, or_false] at ht <;>
        rcases ht with rfl | rfl | rfl | rfl | rfl | rfl | ht <;>
        first
          | exact ⟨_, _, _, _, _, _, rfl, by decide⟩
          | (rcases ht with rfl | rfl <;> exact ⟨_, _, _, _, _, _, rfl, by decide⟩)
    intro t ht
    obtain ⟨r1, r2, g1, g2, b1, b2, rfl, h1, h2, h3, h4, h5, h6, hl⟩ := hx t ht
    obtain ⟨x1, h1⟩ := Option.isSome_iff_exists.1 h1
    obtain ⟨x2, h2⟩ := Option.isSome_iff_exists.1 h2
    obtain ⟨x3, h3⟩ := Option.isSome_iff_exists.1 h3
    obtain ⟨x4, h4⟩ := Option.isSome_iff_exists.1 h4
    obtain ⟨x5, h5⟩ := Option.isSome_iff_exists.1 h5
    obtain ⟨x6, h6⟩ := Option.isSome_iff_exists.1 h6
    obtain ⟨c, hc1, hc2⟩ := C27_round_trip h1 h2 h3 h4 h5 h6
    exact ⟨c, hc1, by rw [hc2, hl]⟩
  have hlook : colorPalettes.lookup name = some texts := by
    simp only [colorPalettes, List.mem_cons, List.not_mem_nil, or_false, Prod.mk.injEq] at h
    rcases h with ⟨rfl, rfl⟩ | ⟨rfl, rfl⟩ <;> rfl
  refine ⟨_, by rw [colorPaletteDefault, hlook]; rfl, ?_⟩
  clear h hlook
  induction texts with
  | nil => exact .nil
  | cons t ts ih =>
    obtain ⟨c, h1, h2⟩ := key t (by simp)
    refine .cons ?_ (ih fun x hx => key x (by simp [hx]))
    simp only [h1, h2, and_self]

end
end Clip
