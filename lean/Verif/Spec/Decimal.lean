import Verif.Model.Sexpr
import Mathlib.Data.Real.Basic
/-!
# Decimal number texts
-/
namespace Clip.Decimal

/-- The decimal digit characters. -/
def digit (d : Nat) : Char := Char.ofNat (48 + d)

/-- The number written by a list of digits, most significant first. -/
def value (ds : List Nat) : Nat := ds.foldl (fun n d => 10 * n + d) 0

/-- `s` is the decimal notation of the natural number `n`, without leading zeros. -/
def NatDenotes (s : Str) (n : Nat) : Prop :=
  ∃ ds : List Nat, ds ≠ [] ∧ (∀ d ∈ ds, d < 10) ∧ (ds.head? = some 0 → ds = [0]) ∧ s = ds.map digit ∧ value ds = n

/-- `s` is the decimal notation of the integer `z`. -/
def IntDenotes (s : Str) (z : ℤ) : Prop :=
  (0 ≤ z ∧ NatDenotes s z.toNat) ∨ (z < 0 ∧ ∃ r, s = '-' :: r ∧ NatDenotes r (-z).toNat)

/-- `s` is a decimal number with exactly `p` decimals, of value `v`. -/
def FixedDenotes (p : Nat) (s : Str) (v : ℝ) : Prop :=
  ∃ (neg : Bool) (whole : Str) (n : Nat) (frac : List Nat),
    NatDenotes whole n ∧ (∀ d ∈ frac, d < 10) ∧ frac.length = p ∧
    s = (if neg then ['-'] else []) ++ whole ++ (if p = 0 then [] else '.' :: frac.map digit) ∧
    v = (if neg then -1 else 1) * ((n : ℝ) + (value frac : ℝ) / 10 ^ p)

/-- Characters and their raised forms. -/
def raised : List (Char × Char) :=
  [('0', '⁰'), ('1', '¹'), ('2', '²'), ('3', '³'), ('4', '⁴'), ('5', '⁵'), ('6', '⁶'), ('7', '⁷'), ('8', '⁸'),
    ('9', '⁹'), ('-', '⁻')]

/-- `s` is the raised notation of the integer `z`. -/
def RaisedDenotes (s : Str) (z : ℤ) : Prop :=
  ∃ t, IntDenotes t z ∧ List.Forall₂ (fun c d => (c, d) ∈ raised) t s

end Clip.Decimal
