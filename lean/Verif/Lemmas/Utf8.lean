import Verif.Model.Utf8
import Verif.Spec.Utf8
set_option linter.unusedSimpArgs false
namespace Clip
open Utf8Spec

theorem and_mod (x : Nat) : x &&& 63 = x % 64 ∧ x &&& 31 = x % 32 ∧ x &&& 15 = x % 16 ∧ x &&& 7 = x % 8 ∧
    x &&& 3 = x % 4 ∧ x &&& 1 = x % 2 :=
  ⟨Nat.and_two_pow_sub_one_eq_mod x 6, Nat.and_two_pow_sub_one_eq_mod x 5, Nat.and_two_pow_sub_one_eq_mod x 4,
    Nat.and_two_pow_sub_one_eq_mod x 3, Nat.and_two_pow_sub_one_eq_mod x 2, Nat.and_two_pow_sub_one_eq_mod x 1⟩

theorem or_add (i a b : Nat) (h : b < 2 ^ i) : 2 ^ i * a ||| b = 2 ^ i * a + b :=
  (Nat.two_pow_add_eq_or_of_lt h a).symm

theorem or6 (a b : Nat) (h : b < 64) : a * 64 ||| b = a * 64 + b := by
  have := or_add 6 a b (by simpa using h); rw [Nat.mul_comm] at this; simpa using this
theorem or12 (a b : Nat) (h : b < 4096) : a * 4096 ||| b = a * 4096 + b := by
  have := or_add 12 a b (by simpa using h); rw [Nat.mul_comm] at this; simpa using this
theorem or18 (a b : Nat) (h : b < 262144) : a * 262144 ||| b = a * 262144 + b := by
  have := or_add 18 a b (by simpa using h); rw [Nat.mul_comm] at this; simpa using this
theorem or24 (a b : Nat) (h : b < 16777216) : a * 16777216 ||| b = a * 16777216 + b := by
  have := or_add 24 a b (by simpa using h); rw [Nat.mul_comm] at this; simpa using this

theorem shl (x : Nat) : x <<< 6 = x * 64 ∧ x <<< 12 = x * 4096 ∧ x <<< 18 = x * 262144 ∧ x <<< 14 = x * 16384 ∧
    x <<< 24 = x * 16777216 := by
  simp [Nat.shiftLeft_eq]

theorem shr (x : Nat) : x >>> 6 = x / 64 ∧ x >>> 12 = x / 4096 ∧ x >>> 18 = x / 262144 ∧ x >>> 24 = x / 16777216 ∧
    x >>> 11 = x / 2048 := by
  simp [Nat.shiftRight_eq_div_pow]

theorem lead (x : Nat) : (x < 64 → 128 ||| x = 128 + x) ∧ (x < 32 → 192 ||| x = 192 + x) ∧
    (x < 16 → 224 ||| x = 224 + x) ∧ (x < 8 → 240 ||| x = 240 + x) ∧ (x < 4 → 248 ||| x = 248 + x) := by
  refine ⟨fun h => ?_, fun h => ?_, fun h => ?_, fun h => ?_, fun h => ?_⟩
  · simpa using or_add 6 2 x (by simpa using h)
  · simpa using or_add 5 6 x (by simpa using h)
  · simpa using or_add 4 14 x (by simpa using h)
  · simpa using or_add 3 30 x (by simpa using h)
  · simpa using or_add 2 62 x (by simpa using h)

/-- Below 2^21 the encoder follows RFC 3629. -/
theorem encode_spec (c : Nat) (h : c < 2097152) : encodeCodepoint c = encode c := by
  unfold encodeCodepoint encode
  simp only [(and_mod _).1, (and_mod _).2.1, (and_mod _).2.2.1, (and_mod _).2.2.2.1, (shr _).1, (shr _).2.1, (shr _).2.2.1]
  split
  · rfl
  · split
    · rw [(lead (c / 64 % 32)).2.1 (by omega), (lead (c % 64)).1 (by omega)]
      rw [Nat.mod_eq_of_lt (by omega)]
    · split
      · rw [(lead (c / 4096 % 16)).2.2.1 (by omega), (lead (c / 64 % 64)).1 (by omega), (lead (c % 64)).1 (by omega)]
        rw [Nat.mod_eq_of_lt (by omega : c / 4096 < 16)]
      · rw [(lead (c / 262144 % 8)).2.2.2.1 (by omega), (lead (c / 4096 % 64)).1 (by omega),
          (lead (c / 64 % 64)).1 (by omega), (lead (c % 64)).1 (by omega)]
        rw [Nat.mod_eq_of_lt (by omega : c / 262144 < 8)]

theorem pre2 : ∀ x, x < 32 → (192 + x) &&& 224 = 192 := by decide
theorem pre3 : ∀ x, x < 16 → ((224 + x) &&& 224 ≠ 192 ∧ (224 + x) &&& 240 = 224) := by decide
theorem pre4 : ∀ x, x < 8 → ((240 + x) &&& 224 ≠ 192 ∧ (240 + x) &&& 240 ≠ 224 ∧ (240 + x) &&& 248 = 240) := by
  decide

theorem decode_spec (c : Nat) (h : c < 2097152) (r : Bytes) : nextCodepoint (encode c ++ r) = .ok (c, r) := by
  unfold encode
  split
  · simp [nextCodepoint, *]
  · split
    · rename_i h1 h2
      simp only [List.cons_append, List.nil_append, nextCodepoint]
      rw [if_neg (by omega), if_pos (pre2 _ (by omega))]
      simp only [(and_mod _).1, (and_mod _).2.1, (shl _).1]
      rw [or6 _ _ (by omega)]
      congr 2
      omega
    · split
      · rename_i h1 h2 h3
        simp only [List.cons_append, List.nil_append, nextCodepoint]
        have := pre3 (c / 4096) (by omega)
        rw [if_neg (by omega), if_neg this.1, if_pos this.2]
        simp only [(and_mod _).1, (and_mod _).2.2.1, (shl _).1, (shl _).2.1]
        rw [or12 _ _ (by omega)]
        have e : ∀ a b : Nat, a * 4096 + b * 64 = (a * 64 + b) * 64 := by intros; omega
        rw [e, or6 _ _ (by omega)]
        congr 2
        omega
      · rename_i h1 h2 h3
        simp only [List.cons_append, List.nil_append, nextCodepoint]
        have := pre4 (c / 262144) (by omega)
        rw [if_neg (by omega), if_neg this.1, if_neg this.2.1, if_pos this.2.2]
        simp only [(and_mod _).1, (and_mod _).2.2.2.1, (shl _).1, (shl _).2.1, (shl _).2.2.1]
        rw [or18 _ _ (by omega)]
        have e1 : ∀ a b : Nat, a * 262144 + b * 4096 = (a * 64 + b) * 4096 := by intros; omega
        have e : ∀ a b : Nat, a * 4096 + b * 64 = (a * 64 + b) * 64 := by intros; omega
        rw [e1, or12 _ _ (by omega), e, or6 _ _ (by omega)]
        congr 2
        omega

theorem encode_ne_nil (c : Nat) : encode c ≠ [] := by
  unfold encode; (repeat' split) <;> simp

theorem isValidStep_encode (c : Nat) (h : c < 2097152) (r : Bytes) :
    isValidStep (encode c ++ r) = .inl r ∨ isValidStep (encode c ++ r) = .inr true := by
  unfold encode
  split
  · right; simp [isValidStep, *]
  · left
    split
    · simp only [List.cons_append, List.nil_append, isValidStep]
      rw [if_neg (by omega), if_pos (pre2 _ (by omega))]
      simp
    · split
      · simp only [List.cons_append, List.nil_append, isValidStep]
        have := pre3 (c / 4096) (by omega)
        rw [if_neg (by omega), if_neg this.1, if_pos this.2]
        simp
      · simp only [List.cons_append, List.nil_append, isValidStep]
        have := pre4 (c / 262144) (by omega)
        rw [if_neg (by omega), if_neg this.1, if_neg this.2.1, if_pos this.2.2]
        simp

theorem convertFrom8_nil (w : Nat) : convertFrom8 w [] = .ok [] := by
  rw [convertFrom8]
  split
  · rename_i c r he
    simp only [nextCodepoint, Outcome.ok.injEq, Prod.mk.injEq] at he
    rw [dif_pos (by rw [← he.1]; simp)]
  all_goals (rename_i he; simp [nextCodepoint] at he)

theorem count_nil : countUTF8CodePoints [] = .ok 0 := by
  rw [countUTF8CodePoints]
  split
  · rename_i c r he
    simp only [nextCodepoint, Outcome.ok.injEq, Prod.mk.injEq] at he
    rw [dif_pos he.1.symm]
  all_goals (rename_i he; simp [nextCodepoint] at he)

end Clip
