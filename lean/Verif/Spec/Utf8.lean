/-!
# UTF-8 (RFC 3629), by arithmetic
-/
namespace Clip.Utf8Spec

/-- The encoding of a code point below 2^21: lead byte plus continuation bytes of 6 bits each. -/
def encode (c : Nat) : List Nat :=
  if c < 0x80 then [c]
  else if c < 0x800 then [0xC0 + c / 64, 0x80 + c % 64]
  else if c < 0x10000 then [0xE0 + c / 4096, 0x80 + c / 64 % 64, 0x80 + c % 64]
  else [0xF0 + c / 262144, 0x80 + c / 4096 % 64, 0x80 + c / 64 % 64, 0x80 + c % 64]

/-- Unicode scalar values. -/
def IsScalar (c : Nat) : Prop := c < 0xD800 ∨ 0xE000 ≤ c ∧ c < 0x110000

/-- Well-formed UTF-8 text. -/
def WellFormed (s : List Nat) : Prop := ∃ cs : List Nat, (∀ c ∈ cs, IsScalar c) ∧ s = cs.flatMap encode

end Clip.Utf8Spec
