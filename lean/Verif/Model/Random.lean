import Verif.Model.StringUtil
import Mathlib.Data.Real.Basic
import Mathlib.Algebra.Order.Floor.Semiring
import Mathlib.Data.Real.Archimedean
/-!
# Model of `src/utils/random.cc` and `src/utils/wallclock.cc`

The pseudo random generator is the list of the 64 bit words it is going to produce.
-/
namespace Clip

/-- random.cc:25-29 `random64`: the next word.  `assert(rval > 0)`: the word zero ends the program (`none`). -/
def random64 : List UInt64 → Option (UInt64 × List UInt64)
  | w :: ws => if w > 0 then some (w, ws) else none
  | [] => none

/-- The next `n` words, as in random.cc:31-67. -/
def randomWords : Nat → List UInt64 → Option (List UInt64 × List UInt64)
  | 0, ws => some ([], ws)
  | n + 1, ws => match random64 ws with
    | some (w, ws) => match randomWords n ws with
      | some (vs, ws) => some (w :: vs, ws)
      | none => none
    | none => none

/-- The eight bytes of a word in memory (little endian). -/
def wordBytes (w : UInt64) : List UInt8 := (List.range 8).map fun i => UInt8.ofNat (w.toNat / 256 ^ i)

/-- random.cc:31-67 `hex64` (`n = 1`), `hex128` (2), `hex256` (4), `hex512` (8). -/
def randomHex (n : Nat) (ws : List UInt64) : Option (Str × List UInt64) :=
  match randomWords n ws with
  | some (vs, ws) => some (hexPrint (vs.flatMap wordBytes) false false, ws)
  | none => none

/-- random.cc:70-71 `kAlphanumericChars` without the final NUL. -/
def alphanumericChars : Str := "0123456789ABCDEFGHIJKLMNOPQRSTUVWXYZ".toList

/-- random.cc:73-78, the loop of `alphanumericString`. -/
def alphanumericLoop : Nat → List UInt64 → Option (Str × List UInt64)
  | 0, ws => some ([], ws)
  | n + 1, w :: ws => match alphanumericLoop n ws with
    | some (s, ws) => some (alphanumericChars.getD (w.toNat % 36) '\x00' :: s, ws)
    | none => none
  | _ + 1, [] => none

/-- random.cc:69-81 `alphanumericString(int nchars)`. -/
def alphanumericString (nchars : Int) (ws : List UInt64) : Option (Str × List UInt64) := alphanumericLoop nchars.toNat ws

/-- `struct timeval` as set by `gettimeofday` since 1970. -/
structure Timeval where
  sec : Nat
  usec : Nat

/-- wallclock.cc:28-33 `unixSeconds`. -/
def clockSeconds (t : Timeval) : Nat := t.sec % 2 ^ 64

/-- wallclock.cc:39-44 `unixMillis`. -/
def clockMillis (t : Timeval) : Nat := (t.sec * 1000 + t.usec / 1000) % 2 ^ 64

/-- wallclock.cc:50-55 `unixMicros`. -/
def clockMicros (t : Timeval) : Nat := (t.sec * 1000000 + t.usec) % 2 ^ 64

/-- wallclock.cc:57-72 `MonotonicClock::now`, from the seconds and nanoseconds of `clock_gettime`. -/
def monotonicMicros (sec nsec : Nat) : Nat := (sec % 2 ^ 64 * 1000000 + nsec / 1000) % 2 ^ 64

open Classical in
/-- UnixTime.cc:53-55 `daysFromNow`; the sum is a `double` (its rounding is not modelled) and its conversion to 64 bits has no
meaning if it does not fit (`none`). -/
noncomputable def daysFromNow (t : Timeval) (days : ℝ) : Option Nat :=
  let v : ℝ := (clockMicros t : ℝ) + days * 86400000000
  if -1 < v ∧ v < 2 ^ 64 then some ⌊v⌋₊ else none

end Clip
