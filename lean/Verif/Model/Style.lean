import Verif.Model.Svg
import Verif.Model.Eval
import Verif.Model.Units
/-!
# Model of `src/style_reader.cc`, the remaining converters of `src/sexpr_conv.cc` / `src/typographic_reader.cc`, and
`src/style_util.cc`

Numbers are exact reals; `stod` is the C++ function.  A reader that fails leaves its local variable in a state nobody
looks at; the model keeps the old value there.
-/
namespace Clip
noncomputable section

inductive ReadErr where
  | color (e : ColorErr)
  | measure (e : MeasureErr)
  | nargs
  | notList
  | notLiteral
  | invalidCommand (name : Str)
  | invalidStyle
  | expectedValue
  | invalidValue
  | font
  | data
  | plot

/-- What keeps a reader from succeeding: an error code, an exception, or undefined behaviour. -/
inductive Fail where
  | error (e : ReadErr)
  | thrown
  | undefined

/-- What the readers look at: the layer (layer.h:23-42) and the number parser. -/
structure ReadEnv where
  stod : Str → Option (ℝ × Nat)
  size : LayerSize
  palette : List Color

/-- sexpr_util.cc:32-42 `expr_walk_map` (strict), with the failure of the whole. -/
def walkRead {σ : Type} (fns : HandlerMap σ Fail) (cmds : List Expr) (s : σ) : σ × Option Fail :=
  match walkStrict fns cmds s with
  | (s', .ok ()) => (s', none)
  | (s', .error (.handler f)) => (s', some f)
  | (s', .error .notList) => (s', some (.error .notList))
  | (s', .error .notLiteral) => (s', some (.error .notLiteral))
  | (s', .error (.invalidCommand n)) => (s', some (.error (.invalidCommand n)))

/-- A bound `expr_to_…(_1, …, &field)`. -/
def field {σ α : Type} (read : List Expr → σ → Except Fail α) (put : σ → α → σ) : Handler σ Fail :=
  fun args s => match read args s with
    | .ok v => (put s v, none)
    | .error f => (s, some f)

def liftOutcome {α : Type} : Outcome ColorErr α → Except Fail α
  | .ok a => .ok a
  | .error e => .error (.error (.color e))
  | .thrown => .error .thrown
  | .undefined => .error .undefined

def liftMeasure {α : Type} : Except MeasureErr α → Except Fail α
  | .ok a => .ok a
  | .error e => .error (.error (.measure e))

/-- color_reader.cc:24-95 `color_read`, `expr_to_color` on an argument chain (line 90: no argument is an invalid colour).-/
def readColor (E : ReadEnv) (old : Color) : List Expr → Except Fail Color
  | [] => .error (.error (.color .invalidColor))
  | e :: _ => liftOutcome (exprToColor E.stod E.palette old e)

/-- sexpr_conv.cc:139-178 `expr_to_number` on an argument chain. -/
def readNumber (stod : Str → Option (ℝ × Nat)) (conv : UnitConvMap) : List Expr → Except Fail ℝ
  | [] => .error (.error (.measure .invalidNumber))
  | e :: _ => liftMeasure (exprToNumber stod conv e)

/-- typographic_reader.cc:139-147 `expr_to_size`. -/
def readSize (E : ReadEnv) (args : List Expr) : Except Fail ℝ := readNumber E.stod (uconvSize E.size) args

/-- sexpr_conv.cc:64-78 `expr_to_float64` on an argument chain. -/
def readFloat (E : ReadEnv) : List Expr → Except Fail ℝ
  | [] => .error (.error .expectedValue)
  | e :: _ => match exprToFloat E.stod e with
    | .ok v => .ok v
    | .error x => .error (.error (.color x))

/-- sexpr_conv_impl.h:61-81 `expr_tov`. -/
def readEach {α : Type} (read : List Expr → Except Fail α) : List Expr → Except Fail (List α)
  | [] => .ok []
  | e :: es => match read (e :: es) with
    | .error f => .error f
    | .ok v => match readEach read es with
      | .error f => .error f
      | .ok vs => .ok (v :: vs)

/-- typographic_reader.cc:37-59 `measure_readn`: parsed and normalised with the font size, no parent size. -/
def readMeasureN (E : ReadEnv) : List Expr → Except Fail Measure
  | [] => .error (.error .expectedValue)
  | e :: _ =>
    if e.isValue then
      match parseMeasure E.stod e.getValue with
      | .error x => .error (.error (.measure x))
      | .ok m => .ok (measureNormalize ⟨E.size.dpi, ⟨.unit, layerSize E.size.fontSize E.size.dpi⟩, ⟨.unit, 0⟩⟩ m)
    else .error (.error .expectedValue)

/-- sexpr.cc:159-161 `expr_is_value(expr, word)` on an argument chain. -/
def isWord : List Expr → Str → Bool
  | e :: _, w => e.isValue && e.getValue == w
  | [], _ => false

/-- sexpr.cc:123-125 `expr_is_list(expr, head)` with 135-145 `expr_get_list_tail`: the arguments of the list. -/
def isCall : List Expr → Str → Option (List Expr)
  | .list (h :: args) :: _, w => if h.isValue && h.getValue == w then some args else none
  | _, _ => none

/-! ## Fills and strokes of the draw module -/

/-- style_reader.cc:152-164 `style_read_fill_solid`. -/
def readFillSolid (E : ReadEnv) : Handler Compound Fail := fun args s =>
  match readColor E .black args with
  | .error f => (s, some f)
  | .ok c => ({ s with fillSolid := s.fillSolid ++ [c] }, none)

/-- style_reader.cc:176-182, the parameters of `hatch`. -/
def hatchTable (E : ReadEnv) : HandlerMap FillHatch Fail := fun n =>
  if n = ['c', 'o', 'l', 'o', 'r'] then
    some (field (fun args h => readColor E h.color args) fun h c => { h with color := c })
  else if n = ['w', 'i', 'd', 't', 'h'] then
    some (field (fun args _ => readSize E args) fun h v => { h with width := v })
  else if n = ['s', 't', 'r', 'i', 'd', 'e'] then
    some (field (fun args _ => readSize E args) fun h v => { h with stride := v })
  else if n = ['a', 'n', 'g', 'l', 'e'] then
    some (field (fun args _ => readFloat E args) fun h v => { h with angle := v })
  else if n = ['o', 'f', 'f', 's', 'e', 't'] then
    some (field (fun args _ => readSize E args) fun h v => { h with offset := v })
  else none

/-- style_reader.cc:166-190 `style_read_fill_hatch`. -/
def readFillHatch (E : ReadEnv) : Handler Compound Fail := fun args s =>
  match walkRead (hatchTable E) args ⟨.black, -45, 0, unitFromPt 6 E.size.dpi, unitFromPt 2 E.size.dpi⟩ with
  | (_, some f) => (s, some f)
  | (h, none) => ({ s with fillHatch := s.fillHatch ++ [h] }, none)

/-- style_reader.cc:192-213 `style_read_fill`. -/
def readFill (E : ReadEnv) : Handler Compound Fail := fun args s =>
  if isWord args ['s', 'o', 'l', 'i', 'd'] then readFillSolid E [] s
  else match isCall args ['s', 'o', 'l', 'i', 'd'] with
    | some as => readFillSolid E as s
    | none =>
      if isWord args ['h', 'a', 't', 'c', 'h'] then readFillHatch E [] s
      else match isCall args ['h', 'a', 't', 'c', 'h'] with
        | some as => readFillHatch E as s
        | none => readFillSolid E args s

/-- style_reader.cc:222-225, the parameters of a solid stroke. -/
def strokeTable (E : ReadEnv) : HandlerMap StrokeSolid Fail := fun n =>
  if n = ['c', 'o', 'l', 'o', 'r'] then
    some (field (fun args k => readColor E k.color args) fun k c => { k with color := c })
  else if n = ['w', 'i', 'd', 't', 'h'] then
    some (field (fun args _ => readSize E args) fun k v => { k with width := v })
  else none

/-- style_reader.cc:215-233 `style_read_stroke_solid`. -/
def readStrokeSolid (E : ReadEnv) : Handler Compound Fail := fun args s =>
  match walkRead (strokeTable E) args ⟨.black, unitFromPt 1 E.size.dpi⟩ with
  | (_, some f) => (s, some f)
  | (k, none) => ({ s with strokeSolid := s.strokeSolid ++ [k] }, none)

/-- style_reader.cc:235-260 `style_read_stroke_solid_short`. -/
def readStrokeShort (E : ReadEnv) : Handler Compound Fail := fun args s =>
  match args with
  | [w, c] =>
    match readSize E [w] with
    | .error f => (s, some f)
    | .ok width => match readColor E .black [c] with
      | .error f => (s, some f)
      | .ok color => ({ s with strokeSolid := s.strokeSolid ++ [⟨color, width⟩] }, none)
  | _ => (s, some (.error .nargs))

/-- style_reader.cc:273-278, the parameters of a dashed stroke. -/
def dashTable (E : ReadEnv) : HandlerMap StrokeDash Fail := fun n =>
  if n = ['c', 'o', 'l', 'o', 'r'] then
    some (field (fun args k => readColor E k.color args) fun k c => { k with color := c })
  else if n = ['w', 'i', 'd', 't', 'h'] then
    some (field (fun args _ => readSize E args) fun k v => { k with width := v })
  else if n = ['p', 'a', 't', 't', 'e', 'r', 'n'] then
    some (field (fun args _ => readEach (readSize E) args) fun k v => { k with pattern := v })
  else if n = ['o', 'f', 'f', 's', 'e', 't'] then
    some (field (fun args _ => readSize E args) fun k v => { k with offset := v })
  else none

/-- style_reader.cc:262-286 `style_read_stroke_dash`. -/
def readStrokeDash (E : ReadEnv) : Handler Compound Fail := fun args s =>
  match walkRead (dashTable E) args
    ⟨.black, unitFromPt 1 E.size.dpi, [unitFromPt 4 E.size.dpi, unitFromPt 4 E.size.dpi], 0⟩ with
  | (_, some f) => (s, some f)
  | (k, none) => ({ s with strokeDash := s.strokeDash ++ [k] }, none)

/-- style_reader.cc:288-309 `style_read_stroke`. -/
def readStroke (E : ReadEnv) : Handler Compound Fail := fun args s =>
  if isWord args ['s', 'o', 'l', 'i', 'd'] then readStrokeSolid E [] s
  else match isCall args ['s', 'o', 'l', 'i', 'd'] with
    | some as => readStrokeSolid E as s
    | none =>
      if isWord args ['d', 'a', 's', 'h'] then readStrokeDash E [] s
      else match isCall args ['d', 'a', 's', 'h'] with
        | some as => readStrokeDash E as s
        | none => readStrokeShort E args s

/-- style_util.cc:20-26 `style_is_visible`. -/
def styleVisible (s : Compound) : Bool :=
  decide (s.fillSolid.length > 0) || decide (s.fillHatch.length > 0) || decide (s.strokeSolid.length > 0) ||
    decide (s.strokeDash.length > 0)

/-! ## Fill and stroke styles of the plot elements -/

/-- style.h:47-60 `StrokeStyle`, with both the dash type and the pattern that is kept when it is not used. -/
structure StrokeState where
  width : ℝ
  color : Color
  dashed : Bool
  offset : Measure
  pattern : List Measure

/-- What `draw_shape` (draw_cmd.cc:44-70) makes of it: `Number(measure)` takes the bare value. -/
def StrokeState.style (k : StrokeState) : StrokeStyle :=
  ⟨k.width, k.color, if k.dashed then some (k.offset.value, k.pattern.map (·.value)) else none⟩

/-- style_reader.cc:38-41, the parameters of `dash`. -/
def dashStyleTable (E : ReadEnv) : HandlerMap StrokeState Fail := fun n =>
  if n = ['p', 'a', 't', 't', 'e', 'r', 'n'] then
    some (field (fun args _ => readEach (readMeasureN E) args) fun k v => { k with pattern := v })
  else if n = ['o', 'f', 'f', 's', 'e', 't'] then
    some (field (fun args _ => readMeasureN E args) fun k v => { k with offset := v })
  else none

/-- style_reader.cc:27-42 `stroke_style_read_dash`. -/
def readDashStyle (E : ReadEnv) : Handler StrokeState Fail := fun args k =>
  walkRead (dashStyleTable E) args
    { k with dashed := true, pattern := [⟨.unit, unitFromPt 2 E.size.dpi⟩, ⟨.unit, unitFromPt 2 E.size.dpi⟩] }

/-- style_reader.cc:44-75 `stroke_style_read`. -/
def readStrokeStyle (E : ReadEnv) : Handler StrokeState Fail := fun args k =>
  if isWord args ['n', 'o', 'n', 'e'] || (isCall args ['n', 'o', 'n', 'e']).isSome then ({ k with width := 0 }, none)
  else if isWord args ['s', 'o', 'l', 'i', 'd'] || (isCall args ['s', 'o', 'l', 'i', 'd']).isSome then
    ({ k with dashed := false }, none)
  else if isWord args ['d', 'a', 's', 'h'] || isWord args ['d', 'a', 's', 'h', 'e', 'd'] then readDashStyle E [] k
  else match isCall args ['d', 'a', 's', 'h'] with
    | some as => readDashStyle E as k
    | none => match isCall args ['d', 'a', 's', 'h', 'e', 'd'] with
      | some as => readDashStyle E as k
      | none => (k, some (.error .invalidStyle))

/-- style_reader.cc:77-89 `fill_style_read_solid`; the hatch flag is left as it is. -/
def readFillStyleSolid (E : ReadEnv) : Handler FillStyle Fail :=
  field (fun args _ => readColor E .black args) fun f c => { f with color := some c }

/-- The local variables of style_reader.cc:95-99. -/
structure HatchArgs where
  color : Color
  angle : ℝ
  offset : Measure
  stride : Measure
  width : Measure

/-- style_reader.cc:102-108. -/
def hatchStyleTable (E : ReadEnv) : HandlerMap HatchArgs Fail := fun n =>
  if n = ['c', 'o', 'l', 'o', 'r'] then
    some (field (fun args h => readColor E h.color args) fun h c => { h with color := c })
  else if n = ['a', 'n', 'g', 'l', 'e'] then
    some (field (fun args _ => readFloat E args) fun h v => { h with angle := v })
  else if n = ['o', 'f', 'f', 's', 'e', 't'] then
    some (field (fun args _ => readMeasureN E args) fun h v => { h with offset := v })
  else if n = ['s', 't', 'r', 'i', 'd', 'e'] then
    some (field (fun args _ => readMeasureN E args) fun h v => { h with stride := v })
  else if n = ['w', 'i', 'd', 't', 'h'] then
    some (field (fun args _ => readMeasureN E args) fun h v => { h with width := v })
  else none

/-- style_reader.cc:91-123 `fill_style_read_hatch`. -/
def readHatchStyle (E : ReadEnv) : Handler FillStyle Fail := fun args f =>
  match walkRead (hatchStyleTable E) args
    ⟨.black, -45, ⟨.unit, 0⟩, ⟨.unit, unitFromPt 3 E.size.dpi⟩, ⟨.unit, unitFromPt 1 E.size.dpi⟩⟩ with
  | (_, some x) => (f, some x)
  | (h, none) => (⟨some h.color, some (h.angle, h.offset.value, h.stride.value, h.width.value)⟩, none)

/-- style_reader.cc:125-150 `fill_style_read`. -/
def readFillStyle (E : ReadEnv) : Handler FillStyle Fail := fun args f =>
  if isWord args ['n', 'o', 'n', 'e'] || (isCall args ['n', 'o', 'n', 'e']).isSome then ({ f with color := none }, none)
  else if isWord args ['h', 'a', 't', 'c', 'h'] || isWord args ['h', 'a', 't', 'c', 'h', 'e', 'd'] then
    readHatchStyle E [] f
  else match isCall args ['h', 'a', 't', 'c', 'h'] with
    | some as => readHatchStyle E as f
    | none => match isCall args ['h', 'a', 't', 'c', 'h', 'e', 'd'] with
      | some as => readHatchStyle E as f
      | none => if args.isEmpty then (f, some (.error .invalidStyle)) else readFillStyleSolid E args f

/-! ## Small converters -/

/-- sexpr_conv.cc:119-137 `expr_to_switch`. -/
def readSwitch (args : List Expr) : Except Fail Bool :=
  if isWord args ['o', 'n'] then .ok true
  else if isWord args ['o', 'f', 'f'] then .ok false
  else .error (.error .invalidValue)

/-- sexpr_conv_impl.h:18-40 `expr_to_enum`; `defs` is the lookup in the unordered map. -/
def readEnum {α : Type} (defs : Str → Option α) : List Expr → Except Fail α
  | e :: _ => if e.isValue then
      match defs e.getValue with
      | some v => .ok v
      | none => .error (.error .invalidValue)
    else .error (.error .invalidValue)
  | [] => .error (.error .invalidValue)

/-- sexpr_conv.cc:92-111 `expr_to_float64_opt_pair`: the two settings afterwards; the first is written before the second
is read. -/
def readFloatPair (E : ReadEnv) (args : List Expr) (old : Option ℝ × Option ℝ) : (Option ℝ × Option ℝ) × Option Fail :=
  match args with
  | [a, b] => match readFloat E [a] with
    | .error f => (old, some f)
    | .ok x => match readFloat E [b] with
      | .error f => ((some x, old.2), some f)
      | .ok y => ((some x, some y), none)
  | _ => (old, some (.error .nargs))

/-- sexpr_conv.cc:180-203 `expr_to_vec2`: the vector afterwards. -/
def readVec2 (stod : Str → Option (ℝ × Nat)) (conv1 conv2 : UnitConvMap) (args : List Expr) (old : Vec2) :
    Vec2 × Option Fail :=
  match args with
  | [a, b] => match readNumber stod conv1 [a] with
    | .error f => (old, some f)
    | .ok x => match readNumber stod conv2 [b] with
      | .error f => (⟨x, old.y⟩, some f)
      | .ok y => (⟨x, y⟩, none)
  | _ => (old, some (.error .nargs))

end
end Clip
