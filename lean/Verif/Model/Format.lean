import Verif.Model.Scale
import Verif.Model.Data
import Mathlib.Data.Nat.Digits.Defs
import Mathlib.Analysis.SpecialFunctions.Log.Base
/-!
# Model of `src/format.cc` and of the number conversions of `src/data.cc`

Exact arithmetic on finite numbers: `stod`, `log10`, `pow` and division are the exact functions (their rounding,
NaN and infinities are not modelled, except the rounding in `formatBase`).  `int` conversions are unbounded integers; where the C++ conversion is
undefined whatever the width (NaN), the model returns `none`.  Texts are characters, not UTF-8 bytes.
-/
namespace Clip
noncomputable section

/-- Decimal digits of a number as the C++ library prints them (`std::to_string(unsigned)`), most significant first. -/
def natText (n : Nat) : Str := if n = 0 then ['0'] else ((Nat.digits 10 n).map fun d => Char.ofNat (48 + d)).reverse

/-- `std::to_string(int)`. -/
def intText (n : ℤ) : Str := if n < 0 then '-' :: natText n.natAbs else natText n.natAbs

/-- The last `p` decimal digits of `n`, padded with zeros. -/
def padDigits : Nat → Nat → Str
  | 0, _ => []
  | p + 1, n => padDigits p (n / 10) ++ [Char.ofNat (48 + n % 10)]

/-- Rounding to the nearest integer, ties to even: what `std::fixed` output does with the exact value. -/
def roundEven (x : ℝ) : ℤ :=
  if x - ⌊x⌋ < 1 / 2 then ⌊x⌋
  else if 1 / 2 < x - ⌊x⌋ then ⌊x⌋ + 1
  else if ⌊x⌋ % 2 = 0 then ⌊x⌋ else ⌊x⌋ + 1

/-- `stream << std::fixed << std::setprecision(p) << x` (format.cc:82-85, 121).  `-0.0` prints as `0` here. -/
def fixedText (p : Nat) (x : ℝ) : Str :=
  let n := (roundEven (|x| * 10 ^ p)).toNat
  (if x < 0 then ['-'] else []) ++ natText (n / 10 ^ p) ++ (if p = 0 then [] else '.' :: padDigits p n)

/-- data.cc:103-109 `value_to_float`. -/
def valueToFloat (stod : Str → Option (ℝ × Nat)) (s : Str) : ℝ :=
  match stod s with
  | some (v, _) => v
  | none => 0

/-- data.cc:111-113 `value_from_float`: `std::to_string(double)` is `%f`, six decimals. -/
def valueFromFloat (v : ℝ) : Str := fixedText 6 v

/-- format.cc:27-65, the switch of `format_superscript`. -/
def superChar (c : Char) : Char :=
  match c with
  | '0' => '⁰'
  | '1' => '¹'
  | '2' => '²'
  | '3' => '³'
  | '4' => '⁴'
  | '5' => '⁵'
  | '6' => '⁶'
  | '7' => '⁷'
  | '8' => '⁸'
  | '9' => '⁹'
  | '-' => '⁻'
  | _ => '�'

/-- format.cc:24-69 `format_superscript`. -/
def formatSuperscript (n : ℤ) : Str := (intText n).map superChar

/-- format.cc:78-80: exponent of the scientific format. -/
def sciExp (v : ℝ) : ℤ := truncZ (Real.logb 10 (v / (if v ≥ 0 then 1 else -1)))

/-- format.cc:71-92 `format_decimal_scientific`. -/
def formatScientific (stod : Str → Option (ℝ × Nat)) (precision : Nat) : Formatter := fun _ vs =>
  let v := valueToFloat stod vs
  if v = 0 then ['0']
  else
    let e := sciExp v
    let x := v / (10 : ℝ) ^ e
    fixedText precision x ++ [' ', '×', ' ', '1', '0'] ++ formatSuperscript e

/-- format.cc:118-124 `format_decimal_fixed`. -/
def formatFixed (stod : Str → Option (ℝ × Nat)) (precision : Nat) : Formatter := fun _ vs =>
  fixedText precision (valueToFloat stod vs)

/-- format.cc:150-155 `format_datetime`: the time in microseconds (`double` to `uint64_t`, which is undefined for negative
and huge numbers: `none`), then utils/UnixTime.cc:57-67 `UnixTime::toString`, `strftime fmt` of the whole seconds. -/
def formatDatetime (stod : Str → Option (ℝ × Nat)) (strftime : Str → ℤ → Str) (fmt : Str) : Nat → Str → Option Str := fun _ vs =>
  let micros := valueToFloat stod vs * 1000000
  if micros ≤ -1 ∨ 2 ^ 64 ≤ micros then none
  else some (strftime fmt (truncZ micros / 1000000))

/-- format.cc:177-193 `format_base_fixed`: the exponent is truncated when passed as `int`; the logarithm of a
negative number is NaN and its conversion undefined (`none`).  The precision has no effect.  `a` rounds the results. -/
def formatBase (a : Arith) (stod : Str → Option (ℝ × Nat)) (base : Nat) (_precision : Nat) : Nat → Str → Option Str := fun _ vs =>
  let v := valueToFloat stod vs
  if v = 0 then some ['0']
  else if v < 0 then none
  else some (natText base ++ formatSuperscript (truncZ (a.d (a.d (Real.log v) / a.d (Real.log base)))))

/-- format.cc:228-233 `format_integer`. -/
def formatInteger (stod : Str → Option (ℝ × Nat)) : Formatter := fun _ vs =>
  intText (truncZ (valueToFloat stod vs))

/-- format.cc:250-254 `format_noop`. -/
def formatNoop : Formatter := fun _ v => v

/-- format.cc:256-264 `format_custom`. -/
def formatCustom (values : List Str) : Formatter := fun idx _ =>
  if values.isEmpty then [] else values.getD (idx % values.length) []

/-- The configured formats, with their parameters. -/
inductive FormatSpec where
  | fixed (precision : Nat)
  | scientific (precision : Nat)
  | datetime (fmt : Str)
  | base (base : Nat) (precision : Nat)
  | integer
  | custom (values : List Str)

inductive FormatErr where
  | badArgs
  | badName
  | data (e : Outcome DataErr Unit)

/-- `uint32_t precision = std::stod(arg)` (format.cc:104, 135): truncation.  Negative values, for which the
conversion is undefined, give 0 here. -/
def precisionArg (stod : Str → Option (ℝ × Nat)) (e : Expr) : Option Nat :=
  (stod e.getValue).map fun r => (truncZ r.1).toNat

/-- format.cc:94-116 `format_configure_decimal_scientific`, 126-148 `format_configure_decimal_fixed`. -/
def configurePrecision (stod : Str → Option (ℝ × Nat)) (mk : Nat → FormatSpec) (args : List Expr) :
    Except FormatErr FormatSpec :=
  match args with
  | [] => .ok (mk 1)
  | [a] => match precisionArg stod a with
    | some p => .ok (mk p)
    | none => .error .badArgs
  | _ => .error .badArgs

/-- format.cc:157-175 `format_configure_datetime`. -/
def configureDatetime (args : List Expr) : Except FormatErr FormatSpec :=
  match args with
  | [] => .ok (.datetime "%Y-%m-%d %H:%M:%S".toList)
  | [a] => .ok (.datetime a.getValue)
  | _ => .error .badArgs

/-- format.cc:195-226 `format_configure_base_fixed`. -/
def configureBase (stod : Str → Option (ℝ × Nat)) (args : List Expr) : Except FormatErr FormatSpec :=
  match args with
  | [b] => match precisionArg stod b with
    | some b => .ok (.base b 1)
    | none => .error .badArgs
  | [b, p] => match precisionArg stod p with
    | none => .error .badArgs
    | some p => match precisionArg stod b with
      | some b => .ok (.base b p)
      | none => .error .badArgs
  | _ => .error .badArgs

/-- format.cc:235-248 `format_configure_integer`. -/
def configureInteger (args : List Expr) : Except FormatErr FormatSpec :=
  match args with
  | [] => .ok .integer
  | _ => .error .badArgs

/-- sexpr_conv.cc:36-40 `expr_to_strings` (sexpr_conv_impl.h:65-85 `expr_tov`): all expressions must be values. -/
def exprToStrings : List Expr → Except Unit (List Str)
  | [] => .ok []
  | e :: es => if e.isValue then (exprToStrings es).map (e.getValue :: ·) else .error ()

/-- data.cc:214-222 `data_load_strings`. -/
def dataLoadStrings (readFile : Str → Option Str) (args : List Expr) : Except FormatErr (List Str) :=
  if exprIsListHead args "csv".toList then
    match dataLoadCsvColumn readFile (exprListTail args) with
    | (vs, .ok _) => .ok vs
    | (_, o) => .error (.data o)
  else match exprToStrings args with
    | .ok vs => .ok vs
    | .error _ => .error .badArgs

/-- format.cc:266-282 `format_configure_custom`. -/
def configureCustom (readFile : Str → Option Str) (args : List Expr) : Except FormatErr FormatSpec :=
  match args with
  | .list es :: rest => (dataLoadStrings readFile (.list es :: rest)).map .custom
  | args => .ok (.custom (args.map Expr.getValue))

/-- sexpr.cc `expr_is_value(expr, cmp)`. -/
def exprIsWord (args : List Expr) (w : Str) : Bool :=
  match args with
  | e :: _ => e.isValue && e.getValue == w
  | [] => false

/-- format.cc:284-343 `format_configure`, of the argument chain of the `label-format` command. -/
def formatConfigure (stod : Str → Option (ℝ × Nat)) (readFile : Str → Option Str) (args : List Expr) :
    Except FormatErr FormatSpec :=
  if exprIsWord args "fixed".toList then configurePrecision stod .fixed []
  else if exprIsListHead args "fixed".toList then configurePrecision stod .fixed (exprListTail args)
  else if exprIsWord args "scientific".toList then configurePrecision stod .scientific []
  else if exprIsListHead args "scientific".toList then configurePrecision stod .scientific (exprListTail args)
  else if exprIsWord args "datetime".toList then configureDatetime []
  else if exprIsListHead args "datetime".toList then configureDatetime (exprListTail args)
  else if exprIsWord args "base".toList then configureBase stod []
  else if exprIsListHead args "base".toList then configureBase stod (exprListTail args)
  else if exprIsWord args "integer".toList then configureInteger []
  else if exprIsListHead args "integer".toList then configureInteger (exprListTail args)
  else if exprIsListHead args "custom".toList then configureCustom readFile (exprListTail args)
  else .error .badName

/-- The label a configured format gives the tick number `idx` with value text `vs`; `none`: undefined. -/
def FormatSpec.label (stod : Str → Option (ℝ × Nat)) (strftime : Str → ℤ → Str) : FormatSpec → Nat → Str → Option Str
  | .fixed p, i, v => some (formatFixed stod p i v)
  | .scientific p, i, v => some (formatScientific stod p i v)
  | .datetime f, i, v => formatDatetime stod strftime f i v
  | .base b p, i, v => formatBase .exact stod b p i v
  | .integer, i, v => some (formatInteger stod i v)
  | .custom vs, i, v => some (formatCustom vs i v)

end
end Clip
