import Verif.Model.StringUtil
import Verif.Model.Units
import Verif.Model.Color
/-!
# Model of the error messages that name the values one may use

`src/return_code.cc` and the texts in scale.cc, format.cc, layer.cc, data.cc, color_reader.cc, typographic_reader.cc,
style_reader.cc, sexpr_conv.cc and graphics/measure.cc.  `fmt::format` is concatenation; `value` is the refused text
(the result of `expr_inspect` where the code calls it).
-/
namespace Clip
noncomputable section

/-- return_code.cc:21-23: `"'" + v + "'"`. -/
def quoteValue (v : Str) : Str := '\'' :: v ++ ['\'']

/-- return_code.cc:18-33 `err_invalid_value`. -/
def errInvalidValue (value : Str) (expected : List Str) : Str :=
  "invalid value: '".toList ++ value ++ "'; expected one of: ".toList ++
    joinStr (expected.map quoteValue) ", ".toList

/-- layer.cc:88-95: the names of all sizes (the order is that of an `unordered_map`: any order; here that of the source). -/
def sizeMessage (size : Str) : Str := errInvalidValue size (paperSizes.map (·.1))

/-- scale.cc:404-411. -/
def kindMessage (value : Str) : Str :=
  errInvalidValue value ["linear".toList, "log".toList, "logarithmic".toList, "invert".toList, "inverted".toList,
    "categorical".toList]

/-- data.cc:410-413 (polylines), 529-532 (points). -/
def dataMessage (format : Str) : Str := errInvalidValue format ["csv".toList, "geojson".toList]

/-- The lines `  - name` of the literal texts below. -/
def itemLines (names : List Str) : Str := (names.map fun n => "  - ".toList ++ n ++ ['\n']).flatten

/-- scale.cc:917-931. -/
def ticksMessage (value : Str) : Str :=
  "invalid argument: '".toList ++ value ++ "'; expected one of: \n".toList ++
    itemLines ["linear".toList, "linear-align".toList, "linear-alignat".toList, "linear-interval".toList,
      "exponential".toList, "exponential-steps".toList, "subdivide".toList, "categorical".toList,
      "categorical-bounds".toList, "none".toList]

/-- format.cc:331-340. -/
def formatMessage (value : Str) : Str :=
  "invalid value '".toList ++ value ++ "', expected one of: \n".toList ++
    itemLines ["fixed".toList, "scientific".toList, "datetime".toList, "base".toList, "integer".toList, "custom".toList]

/-- color_reader.cc:214-219. -/
def colorMapMessage (value : Str) : Str :=
  "invalid value to <color-map>; got '".toList ++ value ++ "', but expected one of: \n".toList ++
    itemLines ["steps".toList, "gradient".toList]

/-- typographic_reader.cc:122-126. -/
def sizeMapMessage (value : Str) : Str :=
  "invalid value to <measure-map>; got '".toList ++ value ++ "', but expected one of: \n".toList ++
    itemLines ["linear".toList]

/-- graphics/measure.cc:112-115. -/
def unitMessage (unit : Str) : Str :=
  "invalid unit: '".toList ++ unit ++ "', expected one of 'mm', 'px', 'pt', 'em', 'rem', 'rel' or '%'".toList

/-- style_reader.cc:70-74. -/
def strokeMessage (value : Str) : Str :=
  "invalid <stroke-style>; expected one of (none, solid), but got: '".toList ++ value ++ ['\'']

/-- sexpr_conv.cc:132-135. -/
def switchMessage (value : Str) : Str :=
  "argument error; expected 'on' or 'off', got: ".toList ++ value

end
end Clip
