import Verif.Model.Sexpr
/-!
# The Gregorian calendar, by "the next day"
-/
namespace Clip.Calendar

/-- Leap years: every fourth year, except centuries not divisible by 400. -/
def leap (y : Nat) : Prop := 4 ∣ y ∧ (100 ∣ y → 400 ∣ y)

instance (y : Nat) : Decidable (leap y) := by unfold leap; infer_instance

/-- Thirty days hath September, ... -/
def monthLength (y m : Nat) : Nat :=
  match m with
  | 4 | 6 | 9 | 11 => 30
  | 2 => if leap y then 29 else 28
  | _ => 31

structure Date where
  year : Nat
  month : Nat
  day : Nat
  deriving DecidableEq, Repr

def Date.Valid (d : Date) : Prop :=
  1 ≤ d.month ∧ d.month ≤ 12 ∧ 1 ≤ d.day ∧ d.day ≤ monthLength d.year d.month

/-- The day after. -/
def next (d : Date) : Date :=
  if d.day < monthLength d.year d.month then { d with day := d.day + 1 }
  else if d.month < 12 then { d with month := d.month + 1, day := 1 }
  else { year := d.year + 1, month := 1, day := 1 }

/-- The date `n` days after 1 January 1970. -/
def afterEpoch : Nat → Date
  | 0 => ⟨1970, 1, 1⟩
  | n + 1 => next (afterEpoch n)

/-! ## Writing dates -/

def digit (n : Nat) : Char := Char.ofNat (48 + n)
def two (n : Nat) : Str := [digit (n / 10), digit (n % 10)]
def four (n : Nat) : Str := [digit (n / 1000), digit (n / 100 % 10), digit (n / 10 % 10), digit (n % 10)]

/-- `YYYY-MM-DD` -/
def dateText (y m d : Nat) : Str := four y ++ '-' :: two m ++ '-' :: two d
/-- `YYYY-MM-DDThh:mm:ss` -/
def timeText (y m d hh mm ss : Nat) : Str :=
  dateText y m d ++ 'T' :: two hh ++ ':' :: two mm ++ ':' :: two ss


/-- A UTC offset designator. -/
inductive Zone where
  | utc
  | east (h m : Nat)
  | west (h m : Nat)
  deriving DecidableEq, Repr

/-- `Z`, `+hh:mm` or `-hh:mm` -/
def Zone.text : Zone → Str
  | .utc => ['Z']
  | .east h m => '+' :: (two h ++ ':' :: two m)
  | .west h m => '-' :: (two h ++ ':' :: two m)

def Zone.hours : Zone → Nat
  | .utc => 0
  | .east h _ => h
  | .west h _ => h

def Zone.minutes : Zone → Nat
  | .utc => 0
  | .east _ m => m
  | .west _ m => m

/-- Seconds east of Greenwich. -/
def Zone.seconds : Zone → Int
  | .utc => 0
  | .east h m => h * 3600 + m * 60
  | .west h m => -(h * 3600 + m * 60)

/-- The numbers of the designator can be written with two digits. -/
def Zone.TwoDigits (z : Zone) : Prop := z.hours < 100 ∧ z.minutes < 100

/-- A fraction of a second, given by its decimal digits; none at all if there are no digits. -/
def fracText : List Nat → Str
  | [] => []
  | ds => '.' :: ds.map digit

/-- The milliseconds meant by up to three decimals. -/
def fracMillis : List Nat → Nat
  | [a] => 100 * a
  | [a, b] => 100 * a + 10 * b
  | [a, b, c] => 100 * a + 10 * b + c
  | _ => 0

end Clip.Calendar
