import Verif.Model.Style
import Verif.Model.TextLayout
import Verif.Model.GLayout
import Verif.Model.Plist
/-!
# Model of `src/draw.cc`, `src/draw/*.cc`, `src/layer.cc` (document settings), `src/eval.cc` on the draw module,
`draw_text` of `src/graphics/draw_cmd.cc`, the run splitting of `src/graphics/text_backend_freetype.cc` and the font
fallback of `src/graphics/text_shaper.cc`

Outside the model (parameters, `TextEnv`): loading a font file, the embedding levels computed by fribidi, shaping a run
with one font (harfbuzz), the outline of a glyph.
-/
namespace Clip
noncomputable section

/-- layer.h:23-42 `struct Layer`; `φ` is a loaded font. -/
structure Layer (φ : Type) where
  size : LayerSize
  fonts : List φ
  background : Color
  palette : List Color
  defaultStyle : Compound
  drawlist : List DrawCmd

/-- layer.cc:25-36 `Layer::Layer()`. -/
def newLayer (φ : Type) : Layer φ where
  size := defaultLayer
  fonts := []
  background := ⟨1, 1, 1, 1⟩
  palette := (colorPaletteDefault ['f', 'n', 'o', 'r', 'd']).getD []
  defaultStyle := ⟨[⟨0, 0, 0, 1⟩], [], [], []⟩
  drawlist := []

/-! ## Text -/

/-- A run of text after the bidirectional analysis: its text and direction. -/
structure TextRun where
  text : Str
  dir : TextDirection
  deriving DecidableEq

/-- What text drawing takes from outside. -/
structure TextEnv (φ : Type) where
  /-- `font_load_best`: the font for a name -/
  loadFont : Str → Option φ
  /-- embedding levels of the characters of a text with the given base direction (fribidi); `none`: an error -/
  levels : TextDirection → Str → Option (List Nat)
  /-- `text_shape_run`: font, run, size in points, dots per inch; glyphs are code points of the font -/
  shapeRun : φ → TextRun → ℝ → ℝ → Option (List (GlyphInfo (φ × Nat)))
  /-- `font_get_glyph_path` -/
  glyphPath : φ → ℝ → ℝ → Nat → Option Path

/-- text_backend_freetype.cc:92-101: the lengths of the runs of equal level (one span: no split on span changes).
`cur` characters of level `l` have been seen since the last split. -/
def levelRuns (l : Nat) (cur : Nat) : List Nat → List (Nat × Nat)
  | [] => [(cur, l)]
  | l' :: ls => if l' ≠ l then (cur, l) :: levelRuns l' 1 ls else levelRuns l (cur + 1) ls

/-- text_backend_freetype.cc:103-125: the texts of the runs. -/
def cutRuns : List (Nat × Nat) → Str → List (TextRun × Nat)
  | [], _ => []
  | (n, l) :: rs, s => (⟨s.take n, if l % 2 = 1 then .rtl else .ltr⟩, l) :: cutRuns rs (s.drop n)

/-- text_backend_freetype.cc:26-128 `text_analyze_bidi_line` for a line of one span; with no characters
`fb_to_span_map[0]` (115) is out of bounds. -/
def analyzeBidi {φ : Type} (T : TextEnv φ) (dir : TextDirection) (text : Str) :
    Except Fail (List (TextRun × Nat)) :=
  match T.levels dir text with
  | none => .error (.error .font)
  | some [] => .error .undefined
  | some (l :: ls) => .ok (cutRuns (levelRuns l 1 ls) text)

/-- text_shaper.cc:107-148 `text_shape_run_with_font_fallback`. -/
def shapeFallback {φ ε : Type} (run : φ → Except ε (List (GlyphInfo (φ × Nat)))) :
    List φ → Except ε (List (GlyphInfo (φ × Nat)))
  | [] => .ok []
  | [f] => run f
  | f :: g :: fs => match run f with
    | .error e => .error e
    | .ok gs => if gs.all (fun i => decide (i.glyph.2 ≠ 0)) then .ok gs else shapeFallback run (g :: fs)

/-- text_shaper.cc:121-123: an error of the shaper is returned. -/
def asExcept {φ α : Type} (run : φ → Option α) (f : φ) : Except Fail α :=
  match run f with
  | some gs => .ok gs
  | none => .error (.error .font)

/-- draw/text.h:22-34 `TextPlacement`, `text_op`. -/
structure TextOp (φ : Type) where
  text : Str
  position : Vec2
  alignX : HAlign
  alignY : VAlign
  fonts : List φ
  fontSize : ℝ
  direction : TextDirection
  style : Compound
  transform : Option Mat3

/-- draw/text.cc:87-113, the loop over the glyphs: the draw list afterwards, and whether a glyph failed. -/
def drawGlyphs {φ : Type} (T : TextEnv φ) (sizePt dpi : ℝ) (offset : Vec2) (op : TextOp φ) :
    List (GlyphPlacement (φ × Nat)) → List DrawCmd → List DrawCmd × Option Fail
  | [], dl => (dl, none)
  | g :: gs, dl =>
    let gt := translate2 ⟨g.x + offset.x, g.y + offset.y⟩
    let gt := match op.transform with
      | some t => t.mul gt
      | none => gt
    match T.glyphPath g.glyph.1 sizePt dpi g.glyph.2 with
    | none => (dl, some (.error .font))
    | some gp =>
      drawGlyphs T sizePt dpi offset op gs (drawShape dl (pathTransform gp gt) op.style ⟨0, .black, none⟩ ⟨none, none⟩ false)

/-- draw/text.cc:40-116 `text(ctx, op)`.  The script and language settings only reach the shaper. -/
def drawText {φ : Type} (T : TextEnv φ) (L : Layer φ) (op : TextOp φ) : Layer φ × Option Fail :=
  let sizePt := unitToPt op.fontSize L.size.dpi
  match analyzeBidi T op.direction op.text with
  | .error f => (L, some f)
  | .ok runs =>
    match reorderBidiLine (runs.map (·.1)) (runs.map (·.2)) op.direction with
    | none => (L, some .undefined)
    | some spans =>
      let shape (r : TextRun) : Except Fail (List (GlyphInfo (φ × Nat))) :=
        shapeFallback (asExcept fun f => T.shapeRun f r sizePt L.size.dpi) op.fonts
      match layoutLine shape op.direction spans with
      | .error f => (L, some f)
      | .ok (glyphs, bbox) =>
        let r := drawGlyphs T sizePt L.size.dpi (layoutAlign bbox op.position op.alignX op.alignY) op glyphs L.drawlist
        ({ L with drawlist := r.1 }, r.2)

open Classical in
/-- graphics/draw_cmd.cc:111-138 `draw_text` with a rotation angle. -/
def drawTextRotated {φ : Type} (T : TextEnv φ) (L : Layer φ) (text : Str) (pos : Vec2) (ax : HAlign) (ay : VAlign)
    (rotate : ℝ) (fonts : List φ) (fontSize : ℝ) (color : Color) : Layer φ × Option Fail :=
  drawText T L {
    text, position := pos, alignX := ax, alignY := ay, fonts, fontSize, direction := .ltr
    style := ⟨[color], [], [], []⟩
    transform := if rotate ≠ 0 then
        some ((translate2 pos).mul ((rotate2 rotate).mul (translate2 ⟨-pos.x, -pos.y⟩)))
      else none }

/-! ## Commands of the draw module -/

def Layer.env {φ : Type} (L : Layer φ) (stod : Str → Option (ℝ × Nat)) : ReadEnv := ⟨stod, L.size, L.palette⟩

/-- The local variables of draw/rectangle.cc:31-43. -/
structure RectArgs where
  style : Compound
  position : Vec2
  size : Vec2

/-- Run a reader on a part of the local variables. -/
def onPart {σ α : Type} (get : σ → α) (put : σ → α → σ) (h : Handler α Fail) : Handler σ Fail := fun args s =>
  let r := h args (get s)
  (put s r.1, r.2)

/-- draw/rectangle.cc:45-65, the settings of a rectangle. -/
def rectTable (E : ReadEnv) : HandlerMap RectArgs Fail := fun n =>
  if n = ['p', 'o', 's', 'i', 't', 'i', 'o', 'n'] then
    some (onPart (·.position) (fun s p => { s with position := p })
      (readVec2 E.stod (uconvWidth E.size) (uconvHeight E.size)))
  else if n = ['s', 'i', 'z', 'e'] then
    some (onPart (·.size) (fun s p => { s with size := p }) (readVec2 E.stod (uconvSize E.size) (uconvSize E.size)))
  else if n = ['c', 'o', 'l', 'o', 'r'] then
    some (onPart (·.style) (fun s p => { s with style := p }) (readFillSolid E))
  else if n = ['f', 'i', 'l', 'l'] then
    some (onPart (·.style) (fun s p => { s with style := p }) (readFill E))
  else if n = ['s', 't', 'r', 'o', 'k', 'e'] then
    some (onPart (·.style) (fun s p => { s with style := p }) (readStroke E))
  else none

/-- draw/path.cc:19-30 `path`: the drawing command; an invisible style is replaced by the layer's default. -/
def drawPath {φ : Type} (path : Path) (style : Compound) (L : Layer φ) : Layer φ :=
  let s := if styleVisible style then style else L.defaultStyle
  { L with drawlist := L.drawlist ++ [⟨path, s, false⟩] }

/-- draw/rectangle.cc:25-79 `rectangle`. -/
def drawRectangle {φ : Type} (stod : Str → Option (ℝ × Nat)) : Handler (Layer φ) Fail := fun args L =>
  let w := layerSize L.size.width L.size.dpi
  let h := layerSize L.size.height L.size.dpi
  match walkRead (rectTable (L.env stod)) args ⟨Compound.none, ⟨w * 0.5, h * 0.5⟩, ⟨w, h⟩⟩ with
  | (_, some f) => (L, some f)
  | (a, none) => (drawPath (pathAddRectCentered [] a.position a.size) a.style L, none)

/-- draw/text.cc:147-166, the settings of a text. -/
def textTable {φ : Type} (T : TextEnv φ) (E : ReadEnv) : HandlerMap (TextOp φ) Fail := fun n =>
  if n = ['p', 'o', 's', 'i', 't', 'i', 'o', 'n'] then
    some (onPart (·.position) (fun s p => { s with position := p })
      (readVec2 E.stod (uconvWidth E.size) (uconvHeight E.size)))
  else if n = ['t', 'e', 'x', 't'] then
    some (field (fun args _ => match exprToString args with
      | some t => .ok t
      | none => .error (.error .expectedValue)) fun s t => { s with text := t })
  else if n = ['f', 'o', 'n', 't'] then
    some (field (fun args _ => match exprToString args with
      | some t => match T.loadFont t with
        | some f => .ok f
        | none => .error (.error .font)
      | none => .error (.error .expectedValue)) fun s f => { s with fonts := f :: s.fonts })
  else if n = ['f', 'o', 'n', 't', '-', 's', 'i', 'z', 'e'] then
    some (field (fun args _ => readNumber E.stod (uconvSize E.size) args) fun s v => { s with fontSize := v })
  else if n = ['c', 'o', 'l', 'o', 'r'] then
    some (onPart (·.style) (fun s p => { s with style := p }) (readFillSolid E))
  else if n = ['f', 'i', 'l', 'l'] then
    some (onPart (·.style) (fun s p => { s with style := p }) (readFill E))
  else if n = ['s', 't', 'r', 'o', 'k', 'e'] then
    some (onPart (·.style) (fun s p => { s with style := p }) (readStroke E))
  else none

/-- draw/text.cc:131-177 `text_eval`. -/
def drawTextCmd {φ : Type} (T : TextEnv φ) (stod : Str → Option (ℝ × Nat)) : Handler (Layer φ) Fail := fun args L =>
  let w := layerSize L.size.width L.size.dpi
  let h := layerSize L.size.height L.size.dpi
  match walkRead (textTable T (L.env stod)) args
    ⟨[], ⟨w * 0.5, h * 0.5⟩, .center, .center, L.fonts, layerSize L.size.fontSize L.size.dpi, .ltr, Compound.none, none⟩ with
  | (_, some f) => (L, some f)
  | (op, none) => drawText T L { op with style := if styleVisible op.style then op.style else L.defaultStyle }

/-- draw.cc:23-35 `draw_eval`, the command table. -/
def drawTable {φ : Type} (T : TextEnv φ) (stod : Str → Option (ℝ × Nat)) : HandlerMap (Layer φ) Fail := fun n =>
  if n = ['t', 'e', 'x', 't'] then some (drawTextCmd T stod)
  else if n = ['r', 'e', 'c', 't', 'a', 'n', 'g', 'l', 'e'] then some (drawRectangle stod)
  else none

/-- draw.cc:23-35 `draw_eval`. -/
def drawModule {φ : Type} (T : TextEnv φ) (stod : Str → Option (ℝ × Nat)) (cmds : List Expr) (L : Layer φ) :
    Layer φ × Option Fail := walkRead (drawTable T stod) cmds L

/-! ## Document settings -/

/-- layer.cc:184-198 `layer_set_dpi_cmd`. -/
def setDpi {φ : Type} (stod : Str → Option (ℝ × Nat)) : Handler (Layer φ) Fail := fun args L =>
  match args with
  | [a] => match readFloat (L.env stod) [a] with
    | .ok v => ({ L with size := { L.size with dpi := v } }, none)
    | .error f => (L, some f)
  | _ => (L, some (.error .nargs))

/-- layer.cc:257-271 `layer_set_font_cmd`. -/
def setFont {φ : Type} (T : TextEnv φ) : Handler (Layer φ) Fail := fun args L =>
  match args with
  | [a] => match exprToString [a] with
    | none => (L, some (.error .expectedValue))
    | some t => match T.loadFont t with
      | some f => ({ L with fonts := f :: L.fonts }, none)
      | none => (L, some (.error .font))
  | _ => (L, some (.error .nargs))

/-- layer.cc:307-322 `layer_set_font_size_cmd`, typographic_reader.cc:24-35 `measure_read`: any unit is taken. -/
def setFontSize {φ : Type} (stod : Str → Option (ℝ × Nat)) : Handler (Layer φ) Fail := fun args L =>
  match args with
  | [a] => if a.isValue then
      match parseMeasure stod a.getValue with
      | .ok m => ({ L with size := { L.size with fontSize := m } }, none)
      | .error e => (L, some (.error (.measure e)))
    else (L, some (.error .expectedValue))
  | _ => (L, some (.error .nargs))

/-- layer.cc:103-130 `layer_resize_cmd`. -/
def setSize {φ : Type} (stod : Str → Option (ℝ × Nat)) : Handler (Layer φ) Fail := fun args L =>
  match layerResizeCmd stod L.size args with
  | .ok s => ({ L with size := s }, none)
  | .error e => (L, some (.error (.measure e)))

/-- eval.cc:56-62, the settings. -/
def docSettings {φ : Type} (T : TextEnv φ) (stod : Str → Option (ℝ × Nat)) : HandlerMap (Layer φ) Fail := fun n =>
  if n = ['s', 'i', 'z', 'e'] then some (setSize stod)
  else if n = ['d', 'p', 'i'] then some (setDpi stod)
  else if n = ['f', 'o', 'n', 't'] then some (setFont T)
  else if n = ['f', 'o', 'n', 't', '-', 's', 'i', 'z', 'e'] then some (setFontSize stod)
  else none

/-- eval.cc:40-43 `MODULES`; the plot module is a parameter. -/
def docModules {φ : Type} (T : TextEnv φ) (stod : Str → Option (ℝ × Nat))
    (plot : List Expr → Layer φ → Layer φ × Option Fail) (name : Str) :
    Option (List Expr → Layer φ → Layer φ × Option Fail) :=
  if name = ['d', 'r', 'a', 'w'] then some (drawModule T stod)
  else if name = ['p', 'l', 'o', 't'] then some plot
  else none

/-- eval.cc:94-106 `eval(ctx, text)`: `none` is an error (of any kind). -/
def evalDocument {φ : Type} (T : TextEnv φ) (stod : Str → Option (ℝ × Nat))
    (plot : List Expr → Layer φ → Layer φ × Option Fail) (L : Layer φ) (text : Str) : Option (Layer φ) :=
  match plistParse (text.length + 2) text with
  | some (some doc) => match evalExpr (docSettings T stod) (docModules T stod plot) doc L with
    | (L', .ok ()) => some L'
    | _ => none
  | _ => none

/-- What is exported of a layer, export_svg.cc:445-490. -/
def Layer.svg {φ : Type} (L : Layer φ) : SvgLayer :=
  ⟨layerSize L.size.width L.size.dpi, layerSize L.size.height L.size.dpi, L.background, L.drawlist⟩

end
end Clip
