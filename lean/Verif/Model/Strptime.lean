import Verif.Model.Time
/-!
# Model of `CivilTime::parseString` and `UnixTime::parseString` (`src/utils/CivilTime.cc`, `UnixTime.cc`)

`strptime` of the C library is modelled for the conversions `%Y %m %d %H %M %S %F %T %R %%` (as in glibc 2.x: numbers of
limited width, leading blanks skipped); every other conversion fails here.  `struct tm t` is not initialised: members that
were never assigned are `none`, and reading one of them is undefined.
-/
namespace Clip

/-- The members of `struct tm` that are read (the month counts from 1 and the year from 0 here). -/
structure Tm where
  year : Option Nat := none
  month : Option Nat := none
  day : Option Nat := none
  hour : Option Nat := none
  minute : Option Nat := none
  second : Option Nat := none
  deriving DecidableEq, Repr

/-- C `isspace`. -/
def isSpaceTm (c : Char) : Bool :=
  c == ' ' || c == '\t' || c == '\n' || c == '\x0b' || c == '\x0c' || c == '\r'

/-- glibc `get_number(from, to, n)`, the loop: at most `n` more digits, as long as the number stays below `to`. -/
def getDigits (to : Nat) : Nat → Nat → Str → Nat × Str
  | 0, val, s => (val, s)
  | n + 1, val, c :: s => if val * 10 ≤ to ∧ isDigitC c then getDigits to n (val * 10 + (c.toNat - 48)) s else (val, c :: s)
  | _ + 1, val, [] => (val, [])

/-- glibc `get_number(from, to, n)`. -/
def getNumber (lo hi n : Nat) (s : Str) : Option (Nat × Str) :=
  match s.dropWhile (· == ' ') with
  | c :: s =>
    if isDigitC c then
      let r := getDigits hi (n - 1) (c.toNat - 48) s
      if r.1 < lo ∨ hi < r.1 then none else some r
    else none
  | [] => none

/-- C `strptime(s, fmt, tm)`: the members assigned, and the rest of the text. -/
def strptime : Str → Str → Tm → Option (Tm × Str)
  | '%' :: '%' :: fmt, s, t => match s with
    | '%' :: s => strptime fmt s t
    | _ => none
  | '%' :: 'Y' :: fmt, s, t => (getNumber 0 9999 4 s).bind fun r => strptime fmt r.2 { t with year := some r.1 }
  | '%' :: 'm' :: fmt, s, t => (getNumber 1 12 2 s).bind fun r => strptime fmt r.2 { t with month := some r.1 }
  | '%' :: 'd' :: fmt, s, t => (getNumber 1 31 2 s).bind fun r => strptime fmt r.2 { t with day := some r.1 }
  | '%' :: 'H' :: fmt, s, t => (getNumber 0 23 2 s).bind fun r => strptime fmt r.2 { t with hour := some r.1 }
  | '%' :: 'M' :: fmt, s, t => (getNumber 0 59 2 s).bind fun r => strptime fmt r.2 { t with minute := some r.1 }
  | '%' :: 'S' :: fmt, s, t => (getNumber 0 61 2 s).bind fun r => strptime fmt r.2 { t with second := some r.1 }
  | '%' :: 'F' :: fmt, s, t => (strptimeDate s t).bind fun r => strptime fmt r.2 r.1
  | '%' :: 'T' :: fmt, s, t => (strptimeTime true s t).bind fun r => strptime fmt r.2 r.1
  | '%' :: 'R' :: fmt, s, t => (strptimeTime false s t).bind fun r => strptime fmt r.2 r.1
  | '%' :: _, _, _ => none
  | c :: fmt, s, t =>
    if isSpaceTm c then strptime fmt (s.dropWhile isSpaceTm) t
    else match s with
      | d :: s => if c = d then strptime fmt s t else none
      | [] => none
  | [], s, t => some (t, s)
where
  /-- `%F`, that is `%Y-%m-%d` -/
  strptimeDate (s : Str) (t : Tm) : Option (Tm × Str) :=
    (getNumber 0 9999 4 s).bind fun y => match y.2 with
      | '-' :: s => (getNumber 1 12 2 s).bind fun m => match m.2 with
        | '-' :: s => (getNumber 1 31 2 s).map fun d =>
            ({ t with year := some y.1, month := some m.1, day := some d.1 }, d.2)
        | _ => none
      | _ => none
  /-- `%T`, that is `%H:%M:%S`, or `%R`, that is `%H:%M` -/
  strptimeTime (seconds : Bool) (s : Str) (t : Tm) : Option (Tm × Str) :=
    (getNumber 0 23 2 s).bind fun h => match h.2 with
      | ':' :: s => (getNumber 0 59 2 s).bind fun m =>
        let t := { t with hour := some h.1, minute := some m.1 }
        if seconds then match m.2 with
          | ':' :: s => (getNumber 0 61 2 s).map fun x => ({ t with second := some x.1 }, x.2)
          | _ => none
        else some (t, m.2)
      | _ => none

/-- CivilTime.cc:24-44 `CivilTime::parseString(const char* str, size_t strlen, const char* fmt)`: `str` is the text from the
pointer to the next NUL; the parameter `strlen` is not used. -/
def civilParse (str : Str) (_strlen : Nat) (fmt : Str) : Outcome Unit (Option Civil) :=
  match strptime fmt str {} with
  | none => .ok none
  | some (⟨some y, some mo, some d, some h, some mi, some s⟩, _) =>
    .ok (some { year := y % 65536, month := mo % 256, day := d % 256, hour := h % 256, minute := mi % 256, second := s % 256 })
  | some _ => .undefined

/-- UnixTime.cc:74-85 `UnixTime::parseString(const char*, size_t, const char*)`. -/
def unixParse (str : Str) (strlen : Nat) (fmt : Str) : Outcome Unit (Option Nat) :=
  match civilParse str strlen fmt with
  | .ok none => .ok none
  | .ok (some c) => .ok (some (unixMicros c))
  | .error e => .error e
  | .thrown => .thrown
  | .undefined => .undefined

/-- UnixTime.cc:68-72 `UnixTime::parseString(const String&, const char*)`. -/
def unixParseString (str fmt : Str) : Outcome Unit (Option Nat) := unixParse (str.takeWhile (· ≠ '\x00')) str.length fmt

/-- UnixTime.cc:57-67 `UnixTime::toString`; `strftime` stands for `gmtime_r` and `strftime` with the buffer of 256 bytes. -/
def unixToString (strftime : Str → Int → Str) (micros : Nat) (fmt : Str) : Str := strftime fmt (Int.ofNat (micros / 1000000))

end Clip
