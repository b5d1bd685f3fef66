import Verif.Model.Plots
/-!
# Model of `src/units.cc`, `src/graphics/measure.cc`, `src/layer.cc` (sizes), `src/typographic_map.cc` and
`expr_to_number` of `src/sexpr_conv.cc`

Exact arithmetic.  `stod` is the C++ function: value and number of characters read, or `none` if it throws.
-/
namespace Clip
noncomputable section

/-- units.h:25-35 `enum class Unit`. -/
inductive MUnit where
  | unit | mm | px | pt | em | rem | rel | percent | user
  deriving DecidableEq, Repr

/-- measure.h:27-33 `struct Measure`. -/
structure Measure where
  unit : MUnit
  value : ℝ

/-- units.cc:23-40 `unit_parse`. -/
def unitParse (s : Str) : Option MUnit :=
  if s = ['m', 'm'] then some .mm else if s = ['p', 'x'] then some .px else if s = ['p', 't'] then some .pt
  else if s = ['e', 'm'] then some .em else if s = ['r', 'e', 'm'] then some .rem else if s = ['%'] then some .percent
  else none

/-- units.cc:42-44 `unit_from_mm`. -/
def unitFromMm (v dpi : ℝ) : ℝ := v / 25.4 * dpi
/-- units.cc:46-48 `unit_from_pt`. -/
def unitFromPt (v dpi : ℝ) : ℝ := v / 72 * dpi
/-- units.cc:50-52 `unit_from_px`. -/
def unitFromPx (v : ℝ) : ℝ := v
/-- units.cc:54-56 `unit_from_percent`. -/
def unitFromPercent (v base : ℝ) : ℝ := v / 100 * base
/-- units.cc:58-60 `unit_to_pt`. -/
def unitToPt (v dpi : ℝ) : ℝ := v / dpi * 72
/-- units.cc:62-64 `unit_from_em`. -/
def unitFromEm (v base : ℝ) : ℝ := base * v

inductive MeasureErr where
  | invalidNumber | invalidUnit (u : Str) | unitExpected | invalidSize (s : Str) | invalidNargs
  deriving DecidableEq, Repr

/-- measure.cc:65-117 `parse_measure`. -/
def parseMeasure (stod : Str → Option (ℝ × Nat)) (s : Str) : Except MeasureErr Measure :=
  match stod s with
  | none => .error .invalidNumber
  | some (v, pos) =>
    if pos = s.length then .ok ⟨.user, v⟩
    else
      let u := s.drop pos
      if u = ['m', 'm'] then .ok ⟨.mm, v⟩
      else if u = ['p', 'x'] then .ok ⟨.px, v⟩
      else if u = ['p', 't'] then .ok ⟨.pt, v⟩
      else if u = ['e', 'm'] ∨ u = ['r', 'e', 'm'] then .ok ⟨.rem, v⟩
      else if u = ['%'] then .ok ⟨.rel, v / 100⟩
      else if u = ['r', 'e', 'l'] then .ok ⟨.rel, v⟩
      else .error (.invalidUnit u)

/-- measure.cc:140-146 `measure_or`. -/
def measureOr (p f : Measure) : Measure := if p.value = 0 then f else p

/-- measure.h:35-39 `struct MeasureConv`. -/
structure MeasureConv where
  dpi : ℝ
  fontSize : Measure
  parentSize : Measure

/-- measure.cc:232-245: the parent size in device units. -/
def convParentSize (c : MeasureConv) : ℝ :=
  match c.parentSize.unit with
  | .pt => c.parentSize.value / 72 * c.dpi
  | .unit | .px | .user => c.parentSize.value
  | _ => 0

/-- measure.cc:247-263: the font size in device units. -/
def convFontSize (c : MeasureConv) : ℝ :=
  match c.fontSize.unit with
  | .pt => c.fontSize.value / 72 * c.dpi
  | .rel => convParentSize c * c.fontSize.value
  | .unit | .px | .user => c.fontSize.value
  | _ => 0

/-- measure.cc:231-285 `measure_normalize`. -/
def measureNormalize (c : MeasureConv) (m : Measure) : Measure :=
  match m.unit with
  | .pt => ⟨.unit, m.value / 72 * c.dpi⟩
  | .rem => ⟨.unit, m.value * convFontSize c⟩
  | .rel => ⟨.unit, m.value * convParentSize c⟩
  | .unit | .px | .user => ⟨.unit, m.value⟩
  | _ => m

/-- measure.cc:181-207 `convert_unit_typographic`; the font size is converted only from points. -/
def convertTypographic (dpi : ℝ) (fontSize : Measure) (m : Measure) : Measure :=
  let fs := if fontSize.unit = .pt then fontSize.value / 72 * dpi else fontSize.value
  match m.unit with
  | .mm => ⟨.unit, m.value / 25.4 * dpi⟩
  | .pt => ⟨.unit, m.value / 72 * dpi⟩
  | .rem => ⟨.unit, m.value * fs⟩
  | _ => m

/-- measure.cc:209-218 `convert_unit_relative`. -/
def convertRelative (range : ℝ) (m : Measure) : Measure :=
  if m.unit = .rel then ⟨.unit, m.value * range⟩ else m

/-- measure.cc:220-229 `convert_unit_user`. -/
def convertUser (f : ℝ → ℝ) (m : Measure) : Measure := if m.unit = .user then ⟨.rel, f m.value⟩ else m

/-- measure.cc:173-179 `convert_unit(converters, measure)`. -/
def convertAll (cs : List (Measure → Measure)) (m : Measure) : Measure := cs.foldl (fun m c => c m) m

/-- layer.h, the parts of `struct Layer` used here. -/
structure LayerSize where
  width : Measure
  height : Measure
  dpi : ℝ
  fontSize : Measure

/-- layer.cc:25-34, the defaults of the constructor. -/
def defaultLayer : LayerSize := ⟨⟨.px, 1600⟩, ⟨.px, 800⟩, 192, ⟨.pt, 11⟩⟩

/-- layer.cc:140-151, 153-164, 279-290: `layer_get_width`, `layer_get_height`, `layer_get_font_size`. -/
def layerSize (m : Measure) (dpi : ℝ) : ℝ :=
  match m.unit with
  | .mm => unitFromMm m.value dpi
  | .pt => unitFromPt m.value dpi
  | .px => unitFromPx m.value
  | _ => 0

/-- layer.cc:70-85: names and sizes in millimetres. -/
def paperSizes : List (Str × Nat × Nat) := [
  ("A0".toList, 841, 1189), ("A0*".toList, 1189, 841), ("A1".toList, 594, 841), ("A1*".toList, 841, 594),
  ("A2".toList, 420, 594), ("A2*".toList, 594, 420), ("A3".toList, 297, 420), ("A3*".toList, 420, 297),
  ("A4".toList, 210, 297), ("A4*".toList, 297, 210), ("A5".toList, 148, 210), ("A5*".toList, 210, 148),
  ("A6".toList, 105, 148), ("A6*".toList, 148, 105)]

/-- layer.cc:67-101 `layer_resize(layer, name)`. -/
def layerResizeNamed (l : LayerSize) (name : Str) : Except MeasureErr LayerSize :=
  match paperSizes.lookup name with
  | none => .error (.invalidSize name)
  | some (w, h) => .ok { l with width := ⟨.mm, w⟩, height := ⟨.mm, h⟩ }

/-- layer.cc:103-130 `layer_resize_cmd`. -/
def layerResizeCmd (stod : Str → Option (ℝ × Nat)) (l : LayerSize) (args : List Expr) : Except MeasureErr LayerSize :=
  match args with
  | [a] => layerResizeNamed l a.getValue
  | [a, b] =>
    if !a.isValue || !b.isValue then .error .invalidNumber
    else
      match parseMeasure stod a.getValue with
      | .error e => .error e
      | .ok w =>
        match parseMeasure stod b.getValue with
        | .error e => .error e
        | .ok h => .ok { l with width := w, height := h }
  | _ => .error .invalidNargs

/-- units.h:85 `UnitConvMap`. -/
abbrev UnitConvMap := MUnit → Option (ℝ → ℝ)

/-- layer.cc:200-209 `layer_get_uconv_width`. -/
def uconvWidth (l : LayerSize) : UnitConvMap
  | .mm => some (unitFromMm · l.dpi)
  | .pt => some (unitFromPt · l.dpi)
  | .px => some unitFromPx
  | .percent => some (unitFromPercent · (layerSize l.width l.dpi))
  | _ => none

/-- layer.cc:211-220 `layer_get_uconv_height`. -/
def uconvHeight (l : LayerSize) : UnitConvMap
  | .mm => some (unitFromMm · l.dpi)
  | .pt => some (unitFromPt · l.dpi)
  | .px => some unitFromPx
  | .percent => some (unitFromPercent · (layerSize l.height l.dpi))
  | _ => none

/-- layer.cc:222-244 `layer_get_uconv_font_size`, `layer_get_uconv_size` (the same table). -/
def uconvSize (l : LayerSize) : UnitConvMap
  | .mm => some (unitFromMm · l.dpi)
  | .pt => some (unitFromPt · l.dpi)
  | .px => some unitFromPx
  | .em => some (unitFromEm · (layerSize l.fontSize l.dpi))
  | .rem => some (unitFromEm · (layerSize l.fontSize l.dpi))
  | _ => none

/-- sexpr_conv.cc:139-178 `expr_to_number`. -/
def exprToNumber (stod : Str → Option (ℝ × Nat)) (conv : UnitConvMap) (e : Expr) : Except MeasureErr ℝ :=
  if !e.isValue then .error .invalidNumber
  else
    let s := e.getValue
    match stod s with
    | none => .error .invalidNumber
    | some (v, pos) =>
      if pos = s.length then if v = 0 then .ok 0 else .error .unitExpected
      else
        match unitParse (s.drop pos) with
        | none => .error (.invalidUnit (s.drop pos))
        | some u =>
          match conv u with
          | none => .error (.invalidUnit (s.drop pos))
          | some f => .ok (f v)

/-- typographic_map.cc:18-33 `measure_map_linear`. -/
def measureMapLinear (stod : Str → Option (ℝ × Nat)) (mn mx : Measure) (value : Str) : Except MeasureErr Measure :=
  match stod value with
  | none => .error .invalidNumber
  | some (v, _) => .ok ⟨.unit, mn.value + (mx.value - mn.value) * clamp01 v⟩

end
end Clip
