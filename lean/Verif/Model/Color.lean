import Verif.Model.Plots
import Verif.Model.StringUtil
import Verif.Model.Outcome
import Verif.Model.Time
/-!
# Model of `src/graphics/color.cc`, `src/color_map.cc`, `src/color_reader.cc` and `src/color_palette.cc`

Channels are real numbers.  The single precision division of `Color::parse` is modelled exactly (`f32Div`); the
products `c * 255` of `to_hex_str` are exact in double precision for such channels.  The interpolation arithmetic of
gradients is exact; map positions are finite numbers.
-/
namespace Clip
noncomputable section

/-- graphics/color.h:21-48 `Color`: four components. -/
@[ext] structure Color where
  r : ℝ
  g : ℝ
  b : ℝ
  a : ℝ

/-- graphics/color.cc:31 `Color::Color()`: opaque black. -/
def Color.black : Color := ⟨0, 0, 0, 1⟩

/-- Exponent and mantissa of the single precision number nearest to `n / d` (round to nearest, ties to even; `n > 0`,
`n ≤ d`, no subnormals): the quotient is `mantissa / 2 ^ exponent`. -/
def f32Parts (n d : Nat) : Nat × Nat :=
  let e0 := 24 + Nat.log2 d - Nat.log2 n
  let e := if n * 2 ^ e0 / d < 2 ^ 24 then e0 else e0 - 1
  let q := n * 2 ^ e / d
  let rem := n * 2 ^ e % d
  let m := if 2 * rem < d then q else if d < 2 * rem then q + 1 else if q % 2 = 0 then q else q + 1
  (m, e)

/-- `int / float`: the correctly rounded single precision quotient, as a real number. -/
def f32Div (n d : Nat) : ℝ :=
  if n = 0 then 0 else ((f32Parts n d).1 : ℝ) / 2 ^ (f32Parts n d).2

/-- C `isspace` in the "C" locale. -/
def isSpaceC (c : Char) : Bool :=
  c == ' ' || c == '\t' || c == '\n' || c == '\x0b' || c == '\x0c' || c == '\r'

/-- The value of a hexadecimal digit for `strtol`. -/
def hexDigitVal (c : Char) : Option Nat :=
  if '0' ≤ c ∧ c ≤ '9' then some (c.toNat - 48)
  else if 'a' ≤ c ∧ c ≤ 'f' then some (c.toNat - 87)
  else if 'A' ≤ c ∧ c ≤ 'F' then some (c.toNat - 55)
  else none

def hexRead : Str → Nat → Nat
  | [], n => n
  | c :: s, n => match hexDigitVal c with
    | some d => hexRead s (16 * n + d)
    | none => n

/-- `std::stoi(s, nullptr, 16)` (no overflow for the short texts given to it): leading blanks, a sign, a `0x` prefix,
digits; the rest is ignored.  `none`: throws `std::invalid_argument`. -/
def stoi16 (s : Str) : Option ℤ :=
  let s := s.dropWhile isSpaceC
  let (neg, s) : Bool × Str := match s with
    | '-' :: r => (true, r)
    | '+' :: r => (false, r)
    | r => (false, r)
  let s : Str := match s with
    | '0' :: x :: h :: r => if (x == 'x' || x == 'X') && (hexDigitVal h).isSome then h :: r else s
    | s => s
  match s with
  | [] => none
  | c :: _ => if (hexDigitVal c).isSome then some (if neg then -(hexRead s 0) else hexRead s 0) else none

/-- One channel of graphics/color.cc:86-120: `std::stoi(text, nullptr, 16) / d`.  A negative quotient is the negative
of the quotient of the absolute value. -/
def hexChannel (text : Str) (d : Nat) : Option ℝ :=
  (stoi16 text).map fun z => if z < 0 then -f32Div z.natAbs d else f32Div z.natAbs d

/-- graphics/color.cc:86-96 `Color::parseHex`, 98-108 `parseHexAlpha`, 110-120 `parseHexShort`; `none`: throws. -/
def colorChannels (s : Str) (w : Nat) (d : Nat) (alpha : Bool) : Option Color := do
  let r ← hexChannel ((s.drop 1).take w) d
  let g ← hexChannel ((s.drop (1 + w)).take w) d
  let b ← hexChannel ((s.drop (1 + 2 * w)).take w) d
  let a ← if alpha then hexChannel ((s.drop (1 + 3 * w)).take w) d else some 1
  some ⟨r, g, b, a⟩

/-- graphics/color.cc:71-84 `Color::parse`: `.ok none` is "false", `.thrown` an exception. -/
def colorParse (s : Str) : Outcome Unit (Option Color) :=
  let lift (o : Option Color) : Outcome Unit (Option Color) := match o with
    | some c => .ok (some c)
    | none => .thrown
  if beginsWith s ['#'] then
    if s.length = 4 then lift (colorChannels s 1 15 false)
    else if s.length = 7 then lift (colorChannels s 2 255 false)
    else if s.length = 9 then lift (colorChannels s 2 255 true)
    else .ok none
  else .ok none

/-- `stream << std::hex << std::setfill('0') << std::setw(2) << int`: at least two digits; negative numbers are
printed as 32 bit two's complement. -/
def hexPad2 (z : ℤ) : Str :=
  let w := (z % 2 ^ 32).toNat
  let ds := [w / 16 ^ 7 % 16, w / 16 ^ 6 % 16, w / 16 ^ 5 % 16, w / 16 ^ 4 % 16, w / 16 ^ 3 % 16, w / 16 ^ 2 % 16]
  ((ds.dropWhile (· == 0)) ++ [w / 16 % 16, w % 16]).map hexDigit

/-- graphics/color.cc:122-134 `Color::to_hex_str`, for `n` = 3 (default) and 4 components. -/
def colorHexStr (c : Color) (alpha : Bool) : Str :=
  '#' :: (([c.r, c.g, c.b] ++ if alpha then [c.a] else []).flatMap fun x => hexPad2 (truncZ (x * 255)))

/-- graphics/color.cc:149-151 `color_is_black`. -/
def colorIsBlack (c : Color) : Prop := c.r = 0 ∧ c.g = 0 ∧ c.b = 0

inductive ColorErr where
  | invalidColor
  | invalidNumber
  | expectedValue
  | noPairs
  | invalidMap
  | invalidPalette
  | invalidData

/-- The number of a digit text; `none`: `std::stol` / `std::stoul` throws (no digits, or out of range). -/
def stolDigits (limit : Nat) (s : Str) : Option Nat :=
  if s.isEmpty then none
  else
    let n := digitsVal s
    if n < limit then some n else none

/-- sexpr_conv.cc:64-78 `expr_to_float64`. -/
def exprToFloat (stod : Str → Option (ℝ × Nat)) (e : Expr) : Except ColorErr ℝ :=
  if e.isValue then
    match stod e.getValue with
    | some (v, _) => .ok v
    | none => .error .invalidNumber
  else .error .expectedValue

def exprToFloats (stod : Str → Option (ℝ × Nat)) : List Expr → Except ColorErr (List ℝ)
  | [] => .ok []
  | e :: es => match exprToFloat stod e with
    | .error x => .error x
    | .ok v => match exprToFloats stod es with
      | .error x => .error x
      | .ok vs => .ok (v :: vs)

/-- color_reader.cc:53-88: the `rgb` and `rgba` lists. -/
def exprToColorList (stod : Str → Option (ℝ × Nat)) (es : List Expr) : Except ColorErr Color :=
  match es with
  | [h, r, g, b] =>
    if h.isValue && h.getValue == "rgb".toList then
      match exprToFloats stod [r, g, b] with
      | .ok [r, g, b] => .ok ⟨r, g, b, 1⟩
      | .ok _ => .error .invalidColor
      | .error e => .error e
    else .error .invalidColor
  | [h, r, g, b, a] =>
    if h.isValue && h.getValue == "rgba".toList then
      match exprToFloats stod [r, g, b, a] with
      | .ok [r, g, b, a] => .ok ⟨r, g, b, a⟩
      | .ok _ => .error .invalidColor
      | .error e => .error e
    else .error .invalidColor
  | _ => .error .invalidColor

/-- color_reader.cc:30-95 `expr_to_color`; `old` is the colour the caller passed in.  The palette index is
`(std::stol(value) - 1) % size` in unsigned 64 bit arithmetic. -/
def exprToColor (stod : Str → Option (ℝ × Nat)) (palette : List Color) (old : Color) (e : Expr) :
    Outcome ColorErr Color :=
  match e with
  | .list es => match exprToColorList stod es with
    | .ok c => .ok c
    | .error e => .error e
  | e =>
    let v := e.getValue
    let index : Outcome ColorErr Color :=
      if isDigitText v then
        if palette.isEmpty then .ok old
        else match stolDigits (2 ^ 63) v with
          | none => .thrown
          | some n => .ok (palette.getD ((n + 2 ^ 64 - 1) % 2 ^ 64 % palette.length) old)
      else .error .invalidColor
    if beginsWith v ['#'] then
      match colorParse v with
      | .ok (some c) => .ok c
      | .ok none => index
      | .error _ => .error .invalidColor
      | .thrown => .thrown
      | .undefined => .undefined
    else index

/-- color_reader.cc:97-123 `color_read_string`: here the index is `std::stoul(value) % size`. -/
def colorReadString (palette : List Color) (old : Color) (v : Str) : Outcome ColorErr Color :=
  let index : Outcome ColorErr Color :=
    if isDigitText v then
      if palette.isEmpty then .ok old
      else match stolDigits (2 ^ 64) v with
        | none => .thrown
        | some n => .ok (palette.getD (n % palette.length) old)
    else .error .invalidColor
  if beginsWith v ['#'] then
    match colorParse v with
    | .ok (some c) => .ok c
    | .ok none => index
    | .error _ => .error .invalidColor
    | .thrown => .thrown
    | .undefined => .undefined
  else index

/-- `std::lower_bound` on a list ordered by position: the first stop at or after `v`; and the stop before it. -/
def lowerBound (v : ℝ) : Option (ℝ × Color) → List (ℝ × Color) → Option (Option (ℝ × Color) × (ℝ × Color))
  | _, [] => none
  | prev, s :: ss => if s.1 < v then lowerBound v (some s) ss else some (prev, s)

def Color.mix (w0 w1 : ℝ) (c0 c1 : Color) : Color :=
  ⟨c0.r * w0 + c1.r * w1, c0.g * w0 + c1.g * w1, c0.b * w0 + c1.b * w1, c0.a * w0 + c1.a * w1⟩

/-- color_map.cc:26-75, the function returned by `color_map_gradient`, on the sorted stops; dereferencing the end
iterator is undefined. -/
def gradientMap (stod : Str → Option (ℝ × Nat)) (stops : List (ℝ × Color)) (value : Str) : Outcome ColorErr Color :=
  if stops.isEmpty then .ok .black
  else match stod value with
    | none => .error .invalidData
    | some (x, _) =>
      let v := clamp01 x
      match lowerBound v none stops with
      | none => .undefined
      | some (prev, (limit1, color1)) =>
        let limit0 := (prev.map (·.1)).getD 0
        let color0 := (prev.map (·.2)).getD .black
        let w1 := (v - limit0) / (limit1 - limit0)
        let w0 := 1 - w1
        if v ≥ limit1 then .ok (Color.mix 0 1 color0 color1) else .ok (Color.mix w0 w1 color0 color1)

/-- `std::upper_bound` on a list ordered by position: the last stop not after `v`. -/
def lastNotAfter (v : ℝ) : Option (ℝ × Color) → List (ℝ × Color) → Option (ℝ × Color)
  | prev, [] => prev
  | prev, s :: ss => if v < s.1 then prev else lastNotAfter v (some s) ss

/-- color_map.cc:87-117, the function returned by `color_map_steps`, on the sorted stops. -/
def stepsMap (stod : Str → Option (ℝ × Nat)) (stops : List (ℝ × Color)) (value : Str) : Outcome ColorErr Color :=
  if stops.isEmpty then .ok .black
  else match stod value with
    | none => .error .invalidData
    | some (x, _) => match lastNotAfter (clamp01 x) none stops with
      | none => .ok .black
      | some s => .ok s.2

/-- color_map.cc:19-24, 80-85: `std::sort` by position; any order of stops with equal positions. -/
def SortedStops (stops sorted : List (ℝ × Color)) : Prop :=
  sorted.Perm stops ∧ sorted.Pairwise fun a b => a.1 ≤ b.1

/-- color_reader.cc:151-165, 183-197: the pairs of a `gradient` or `steps` list. -/
def readStops (stod : Str → Option (ℝ × Nat)) (palette : List Color) : List Expr → Outcome ColorErr (List (ℝ × Color))
  | [] => .ok []
  | [_] => .error .noPairs
  | p :: c :: es => match exprToFloat stod p with
    | .error e => .error e
    | .ok step => match exprToColor stod palette .black c with
      | .ok col => match readStops stod palette es with
        | .ok ss => .ok ((step, col) :: ss)
        | .error e => .error e
        | .thrown => .thrown
        | .undefined => .undefined
      | .error e => .error e
      | .thrown => .thrown
      | .undefined => .undefined

inductive MapKind where | gradient | steps
  deriving DecidableEq

/-- color_reader.cc:202-220 `color_map_read` with 138-200 `color_map_read_gradient`, `color_map_read_steps`: the number
of arguments is checked first. -/
def colorMapRead (stod : Str → Option (ℝ × Nat)) (palette : List Color) (args : List Expr) :
    Outcome ColorErr (MapKind × List (ℝ × Color)) :=
  let read (k : MapKind) (es : List Expr) : Outcome ColorErr (MapKind × List (ℝ × Color)) :=
    if es.length % 2 ≠ 0 then .error .noPairs
    else match readStops stod palette es with
      | .ok ss => .ok (k, ss)
      | .error e => .error e
      | .thrown => .thrown
      | .undefined => .undefined
  match args with
  | .list (h :: es) :: _ =>
    if h.isValue && h.getValue == "gradient".toList then read .gradient es
    else if h.isValue && h.getValue == "steps".toList then read .steps es
    else .error .invalidMap
  | _ => .error .invalidMap

/-- color_palette.cc:18-52 `COLOR_PALETTES`. -/
def colorPalettes : List (Str × List Str) := [
  ("fnord".toList, ["#4572a7".toList, "#aa4643".toList, "#db843d".toList, "#89a54e".toList, "#80699b".toList,
    "#3d96ae".toList]),
  ("zhang".toList, ["#6a88c4".toList, "#75c042".toList, "#efeb52".toList, "#f5a325".toList, "#f92d23".toList,
    "#9551a1".toList, "#323085".toList, "#a2a2a2".toList])]

/-- color_palette.cc:54-87 `color_palette_default`; a text that does not parse leaves the colour black. -/
def colorPaletteDefault (name : Str) : Option (List Color) :=
  (colorPalettes.lookup name).map fun l => l.map fun s => match colorParse s with
    | .ok (some c) => c
    | _ => .black

end
end Clip
