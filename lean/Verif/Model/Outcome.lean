import Verif.Model.Sexpr
/-!
# Outcomes of C++ calls

(Infrastructure.)  `error` is a `ReturnCode` other than `OK` (return_code.h:27-60), `thrown` an uncaught C++
exception, `undefined` undefined behaviour (e.g. reading outside a string or vector).
-/
namespace Clip

inductive Outcome (ε α : Type) where
  | ok (a : α)
  | error (e : ε)
  | thrown
  | undefined
  deriving DecidableEq, Repr

/-- `std::string::operator[]`: at `size()` it yields the terminating NUL, beyond it is undefined. -/
def strAt (s : Str) (i : Nat) : Option Char :=
  if h : i < s.length then some s[i] else if i = s.length then some '\x00' else none

end Clip
