/-!
# Small specifications for texts
-/
namespace Clip.TextSpec

/-- A decimal digit. -/
def Digit (c : Char) : Prop := '0' ≤ c ∧ c ≤ '9'

/-- The number a text of digits denotes. -/
inductive Digits : List Char → Nat → Prop
  | nil : Digits [] 0
  | snoc {s c n} : Digits s n → Digit c → Digits (s ++ [c]) (10 * n + (c.toNat - '0'.toNat))

/-- Decimal numbers as users write them: optional minus, at least one digit, optional fraction. -/
def Decimal (s : List Char) : Prop :=
  ∃ sign int frac, s = sign ++ int ++ frac ∧ (sign = [] ∨ sign = ['-']) ∧
    int ≠ [] ∧ (∀ c ∈ int, Digit c) ∧
    (frac = [] ∨ ∃ ds, ds ≠ [] ∧ (∀ c ∈ ds, Digit c) ∧ frac = '.' :: ds)

/-- The value of a hexadecimal digit. -/
def hexVal (c : Char) : Option Nat :=
  if '0' ≤ c ∧ c ≤ '9' then some (c.toNat - '0'.toNat)
  else if 'a' ≤ c ∧ c ≤ 'f' then some (c.toNat - 'a'.toNat + 10)
  else if 'A' ≤ c ∧ c ≤ 'F' then some (c.toNat - 'A'.toNat + 10)
  else none

/-- Reading a hex dump: blanks are ignored, two digits are a byte. -/
def readHex : List Char → Option (List UInt8)
  | [] => some []
  | ' ' :: s => readHex s
  | a :: b :: s =>
    match hexVal a, hexVal b, readHex s with
    | some x, some y, some l => some (UInt8.ofNat (16 * x + y) :: l)
    | _, _, _ => none
  | _ => none

end Clip.TextSpec
