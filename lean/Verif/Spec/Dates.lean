import Verif.Spec.Calendar
import Mathlib.Data.Real.Basic
/-! # Instants, and how a time format writes them -/
namespace Clip.Dates
open Calendar

/-- A day of the calendar and a time of that day. -/
structure Instant where
  date : Date
  hour : Nat
  minute : Nat
  second : Nat

/-- The instant `t` seconds after 1 January 1970 began (UTC, every day has 86400 seconds). -/
def Since (t : ℤ) (i : Instant) : Prop :=
  i.hour < 24 ∧ i.minute < 60 ∧ i.second < 60 ∧
  ∃ n : Nat, i.date = afterEpoch n ∧ t = n * 86400 + i.hour * 3600 + i.minute * 60 + i.second

/-- How a time format is filled in (ISO C `strftime`): `%Y` is the year, `%m` month, `%d` day, `%H` hour, `%M` minute, `%S`
second, all with two digits but the year (written here for years of four digits), `%y` the last two digits of the year,
`%F`, `%T`, `%R` and `%D` are short for `%Y-%m-%d`, `%H:%M:%S`, `%H:%M` and `%m/%d/%y`, `%%` is a percent sign, and
every other character stands for itself.  (The names of months and days, week numbers and the like are left out.) -/
inductive Written (i : Instant) : Str → Str → Prop
  | nil : Written i [] []
  | plain (c : Char) {f t} : c ≠ '%' → Written i f t → Written i (c :: f) (c :: t)
  | percent {f t} : Written i f t → Written i ('%' :: '%' :: f) ('%' :: t)
  | year {f t} : i.date.year ≤ 9999 → Written i f t → Written i ('%' :: 'Y' :: f) (four i.date.year ++ t)
  | shortYear {f t} : Written i f t → Written i ('%' :: 'y' :: f) (two (i.date.year % 100) ++ t)
  | month {f t} : Written i f t → Written i ('%' :: 'm' :: f) (two i.date.month ++ t)
  | day {f t} : Written i f t → Written i ('%' :: 'd' :: f) (two i.date.day ++ t)
  | hour {f t} : Written i f t → Written i ('%' :: 'H' :: f) (two i.hour ++ t)
  | minute {f t} : Written i f t → Written i ('%' :: 'M' :: f) (two i.minute ++ t)
  | second {f t} : Written i f t → Written i ('%' :: 'S' :: f) (two i.second ++ t)
  | fullDate {f t} : i.date.year ≤ 9999 → Written i f t →
      Written i ('%' :: 'F' :: f) (dateText i.date.year i.date.month i.date.day ++ t)
  | fullTime {f t} : Written i f t →
      Written i ('%' :: 'T' :: f) (two i.hour ++ ':' :: two i.minute ++ ':' :: two i.second ++ t)
  | hourMinute {f t} : Written i f t → Written i ('%' :: 'R' :: f) (two i.hour ++ ':' :: two i.minute ++ t)
  | usDate {f t} : Written i f t →
      Written i ('%' :: 'D' :: f) (two i.date.month ++ '/' :: two i.date.day ++ '/' :: two (i.date.year % 100) ++ t)

/-- A `strftime` (after `gmtime`) that does what the standard says, for texts that fit its buffer of 256 bytes. -/
def Standard (strftime : Str → ℤ → Str) : Prop :=
  ∀ t i fmt text, Since t i → Written i fmt text → text.length < 256 → strftime fmt t = text

/-- `YYYY-MM-DD hh:mm:ss` -/
def stamp (i : Instant) : Str :=
  dateText i.date.year i.date.month i.date.day ++ ' ' :: two i.hour ++ ':' :: two i.minute ++ ':' :: two i.second

end Clip.Dates
