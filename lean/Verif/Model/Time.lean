import Verif.Model.Outcome
/-!
# Model of `src/utils/ISO8601.cc`, `UnixTime.cc`, `UnixTime_impl.h`, `duration_impl.h`, `duration.cc`,
`time_constants.h`

`CivilTime::parseString` and `UnixTime::toString` are in Model/Strptime.
-/
namespace Clip

/-- CivilTime.h `class CivilTime`; small unsigned fields are natural numbers. -/
structure Civil where
  year : Nat := 0
  month : Nat := 0
  day : Nat := 0
  hour : Nat := 0
  minute : Nat := 0
  second : Nat := 0
  millisecond : Nat := 0
  offset : Int := 0
  deriving DecidableEq, Repr

/-- ISO8601.cc:278-284 `isLeapYear`. -/
def isLeapYear (year : Nat) : Bool := (year % 4 == 0 && year % 100 != 0) || year % 400 == 0

/-- ISO8601.cc:286-292 `daysInMonth`. -/
def daysInMonth (year month : Nat) : Nat :=
  if month = 2 then 28 + (if isLeapYear year then 1 else 0)
  else 31 - (month - 1) % 7 % 2

/-- UnixTime.cc:27-29: the days of the years `1970 .. year - 1`. -/
def yearDays (year : Nat) : Nat :=
  ((List.range' 1970 (year - 1970)).map fun i => 365 + (if isLeapYear i then 1 else 0)).sum

/-- UnixTime.cc:31-33: the days of the months `1 .. month - 1`. -/
def monthDays (year month : Nat) : Nat :=
  ((List.range' 1 (month - 1)).map fun i => daysInMonth year i).sum

/-- UnixTime.cc:24-42 `UnixTime::UnixTime(const CivilTime&)`: the stored `uint64_t`.  The sum is formed in ℤ
and reduced modulo 2^64 once (unsigned arithmetic is arithmetic modulo 2^64). -/
def unixMicros (c : Civil) : Nat :=
  let days : Int := (c.day : Int) - 1 + yearDays c.year + monthDays c.year c.month
  ((days * 86400000000 + c.hour * 3600000000 + c.minute * 60000000 + c.second * 1000000 +
    c.millisecond * 1000 + c.offset * 1000000 * -1) % 18446744073709551616).toNat

/-- `isdigit` in the C locale. -/
def isDigitC (c : Char) : Bool := '0' ≤ c && c ≤ '9'

/-- `std::stoi` of a string of digits. -/
def digitsVal (s : Str) : Nat := s.foldl (fun n c => n * 10 + (c.toNat - 48)) 0

/-- stringutil.cc:308-316 `isDigitString(begin, end)` on the pointers `i`, `i + n` into a NUL terminated
string; stops at the first other character. -/
def digitRange (s : Str) (i : Nat) : Nat → Outcome Unit (Option Str)
  | 0 => .ok (some [])
  | n + 1 =>
    match strAt s i with
    | none => .undefined
    | some c =>
      if isDigitC c then
        match digitRange s (i + 1) n with
        | .ok (some cs) => .ok (some (c :: cs))
        | o => o
      else .ok none

/-- `String(begin, end)`, then `isDigitString` (used for year, month, day): copies the whole range first. -/
def digitCopy (s : Str) (i n : Nat) : Outcome Unit (Option Str) :=
  if i + n ≤ s.length + 1 then digitRange s i n else .undefined

/-- ISO8601.cc:19-79 `parseTimeOffset`. -/
def parseTimeOffset (s : Str) (i : Nat) (d : Civil) : Outcome Unit (Option Civil) :=
  match strAt s i with
  | none => .undefined
  | some c =>
    if i + 1 = s.length ∧ (c = 'z' ∨ c = 'Z') then .ok (some { d with offset := 0 })
    else if c = '+' ∨ c = '-' then
      let sign : Int := if c = '+' then 1 else -1
      if i + 3 > s.length then .ok none
      else
        match digitRange s (i + 1) 2 with
        | .ok (some hs) =>
          if digitsVal hs ≤ 24 then
            if i + 6 > s.length then .ok none
            else if strAt s (i + 3) ≠ some ':' then .ok none
            else
              match digitRange s (i + 4) 2 with
              | .ok (some ms) =>
                if digitsVal ms ≤ 59 then
                  .ok (some { d with offset := sign * (digitsVal hs * 3600 + digitsVal ms * 60 : Nat) })
                else .ok none
              | .ok none => .ok none
              | .undefined => .undefined
              | .thrown => .thrown
              | .error e => .error e
          else .ok none
        | .ok none => .ok none
        | .undefined => .undefined
        | .thrown => .thrown
        | .error e => .error e
    else .ok none

/-- ISO8601.cc:90-93: the number of digits from `i` on, never looking beyond the end. -/
def countDigits (s : Str) (i : Nat) : Nat :=
  if h : i < s.length then if isDigitC s[i] then countDigits s (i + 1) + 1 else 0 else 0
termination_by s.length - i

/-- ISO8601.cc:81-108 `parseSecondFrac`.  (At `frac_begin + frac_len == end` the NUL is read, not a digit.) -/
def parseSecondFrac (s : Str) (i : Nat) (d : Civil) : Outcome Unit (Option Civil) :=
  if i + 1 > s.length then .ok none
  else
    match strAt s i with
    | none => .undefined
    | some c =>
      if c ≠ '.' then .ok none
      else
        let n := countDigits s (i + 1)
        if n < 1 ∨ n > 3 then .ok none
        else
          let millis := digitsVal ((s.drop (i + 1)).take n) * 10 ^ (3 - n)
          parseTimeOffset s (i + 1 + n) { d with millisecond := millis }

/-- ISO8601.cc:110-134 `parseSecond`.  The second alternative continues with the date as modified by the first
one (same pointer). Simplification: a failed first alternative may leave a changed millisecond; the second
alternative then fails as well, because both start at the same character and the first one requires '.'. -/
def parseSecond (s : Str) (i : Nat) (d : Civil) : Outcome Unit (Option Civil) :=
  if i + 1 > s.length then .ok none
  else if strAt s i ≠ some ':' then .ok none
  else
    match digitRange s (i + 1) 2 with
    | .ok (some ds) =>
      if digitsVal ds ≤ 59 then
        match parseSecondFrac s (i + 3) { d with second := digitsVal ds } with
        | .ok none => parseTimeOffset s (i + 3) { d with second := digitsVal ds }
        | o => o
      else .ok none
    | .ok none => .ok none
    | .undefined => .undefined
    | .thrown => .thrown
    | .error e => .error e

/-- ISO8601.cc:136-158 `parseMinute`. -/
def parseMinute (s : Str) (i : Nat) (d : Civil) : Outcome Unit (Option Civil) :=
  if i + 1 > s.length then .ok none
  else if strAt s i ≠ some ':' then .ok none
  else
    match digitRange s (i + 1) 2 with
    | .ok (some ds) =>
      if digitsVal ds ≤ 59 then parseSecond s (i + 3) { d with minute := digitsVal ds } else .ok none
    | .ok none => .ok none
    | .undefined => .undefined
    | .thrown => .thrown
    | .error e => .error e

/-- ISO8601.cc:161-184 `parseHour`. -/
def parseHour (s : Str) (i : Nat) (d : Civil) : Outcome Unit (Option Civil) :=
  if i + 1 > s.length then .ok none
  else if strAt s i ≠ some 'T' ∧ strAt s i ≠ some 't' then .ok none
  else
    match digitRange s (i + 1) 2 with
    | .ok (some ds) =>
      if digitsVal ds ≤ 24 then parseMinute s (i + 3) { d with hour := digitsVal ds } else .ok none
    | .ok none => .ok none
    | .undefined => .undefined
    | .thrown => .thrown
    | .error e => .error e

/-- ISO8601.cc:186-213 `parseDay`: line 199 passes the day where the month is expected. -/
def parseDay (s : Str) (i : Nat) (d : Civil) : Outcome Unit (Option Civil) :=
  if i + 1 > s.length then .ok none
  else if strAt s i ≠ some '-' then .ok none
  else
    match digitCopy s (i + 1) 2 with
    | .ok (some ds) =>
      let day := digitsVal ds
      if day > 0 ∧ day ≤ daysInMonth d.year day then
        if i + 3 < s.length then parseHour s (i + 3) { d with day := day }
        else .ok (some { d with day := day })
      else .ok none
    | .ok none => .ok none
    | .undefined => .undefined
    | .thrown => .thrown
    | .error e => .error e

/-- ISO8601.cc:215-241 `parseMonth`. -/
def parseMonth (s : Str) (i : Nat) (d : Civil) : Outcome Unit (Option Civil) :=
  if i + 3 > s.length then .ok none
  else if strAt s i ≠ some '-' then .ok none
  else
    match digitCopy s (i + 1) 2 with
    | .ok (some ds) =>
      let month := digitsVal ds
      if month > 0 ∧ month < 13 then
        if i + 3 < s.length then parseDay s (i + 3) { d with month := month }
        else .ok (some { d with month := month })
      else .ok none
    | .ok none => .ok none
    | .undefined => .undefined
    | .thrown => .thrown
    | .error e => .error e

/-- ISO8601.cc:243-264 `parseYear`, 268-276 `ISO8601::parse`; `some none` is `None`. -/
def iso8601Parse (s : Str) : Outcome Unit (Option Civil) :=
  if 4 > s.length then .ok none
  else
    match digitCopy s 0 4 with
    | .ok (some ds) =>
      if 4 < s.length then parseMonth s 4 { year := digitsVal ds }
      else .ok (some { year := digitsVal ds })
    | .ok none => .ok none
    | .undefined => .undefined
    | .thrown => .thrown
    | .error e => .error e

/-! ## Durations and time points: 64 bit unsigned microseconds -/

/-- UnixTime_impl.h `operator+(Duration)`. -/
def timeAdd (t d : UInt64) : UInt64 := t + d
/-- UnixTime_impl.h `operator-(Duration)`. -/
def timeSub (t d : UInt64) : UInt64 := t - d
/-- UnixTime_impl.h `operator-(UnixTime)`. -/
def timeDiff (a b : UInt64) : UInt64 := if a > b then a - b else b - a

/-- duration_impl.h `milliseconds()`, `seconds()`, `minutes()`, `hours()`, `days()`. -/
def durMillis (d : Nat) : Nat := d / 1000
def durSeconds (d : Nat) : Nat := d / 1000000
def durMinutes (d : Nat) : Nat := durSeconds d / 60
def durHours (d : Nat) : Nat := durMinutes d / 60
def durDays (d : Nat) : Nat := durHours d / 24

/-- duration_impl.h `fromDays` ... `fromNanoseconds`, modulo 2^64. -/
def fromDays (v : Nat) : Nat := v * 1000000 * 86400 % 2 ^ 64
def fromHours (v : Nat) : Nat := v * 1000000 * 3600 % 2 ^ 64
def fromMinutes (v : Nat) : Nat := v * 1000000 * 60 % 2 ^ 64
def fromSeconds (v : Nat) : Nat := v * 1000000 % 2 ^ 64
def fromMilliseconds (v : Nat) : Nat := v * 1000 % 2 ^ 64
def fromNanoseconds (v : Nat) : Nat := v / 1000

/-- The six numbers of duration.cc:19-24 `inspect`. -/
structure DurParts where
  years : Nat
  days : Nat
  hours : Nat
  minutes : Nat
  seconds : Nat
  msecs : Nat

/-- duration.cc:19-24 (the `unsigned` conversions lose nothing for 64 bit durations). -/
def durParts (d : Nat) : DurParts where
  years := durDays d / 365
  days := durDays d % 365
  hours := durHours d % 24
  minutes := durMinutes d % 60
  seconds := durSeconds d % 60
  msecs := durMillis d % 1000

/-- duration.cc:32-55: a component with separator `if (i++) sstr << ' '`; state: text and `i`. -/
def durPut (st : Str × Nat) (v : Nat) (unit : Str) : Str × Nat :=
  if v ≠ 0 then
    ((if st.2 ≠ 0 then st.1 ++ [' '] else st.1) ++ (toString v).toList ++ unit, st.2 + 1)
  else st

/-- duration.cc:18-58 `inspect(Duration)`.  The years are written without counting them in `i`. -/
def durInspect (d : Nat) : Str :=
  let p := durParts d
  let st : Str × Nat := (if p.years ≠ 0 then (toString p.years).toList ++ " years".toList else [], 0)
  let st := durPut st p.days " days".toList
  let st := durPut st p.hours " hours".toList
  let st := durPut st p.minutes " minutes".toList
  let st := durPut st p.seconds " seconds".toList
  (durPut st p.msecs "ms".toList).1

end Clip
