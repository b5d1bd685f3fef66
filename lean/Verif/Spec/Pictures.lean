import Verif.Spec.Drawing
import Verif.Model.Draw
import Verif.Spec.Bidi
/-!
# What the commands of the draw module mean (specification)
-/
namespace Clip.Pictures
open Settings Drawing
noncomputable section

variable (E : ReadEnv)

/-- The command is a style setting that means something. -/
def StyleSetting (n : Str) (args : List Expr) : Prop :=
  (n = "color".toList ∧ ∃ v, IsColor E args v) ∨ (n = "fill".toList ∧ ∃ f, FillMeans E args f) ∨
    (n = "stroke".toList ∧ ∃ f, StrokeMeans E args f)

/-- Position on the page; percentages are of the width and height of the page. -/
abbrev IsPosition : List Expr → Vec2 → Prop := IsPair E (uconvWidth E.size) (uconvHeight E.size)

/-- Width and height. -/
abbrev IsExtent : List Expr → Vec2 → Prop := IsPair E (uconvSize E.size) (uconvSize E.size)

/-- The page, in device units. -/
def page : Vec2 := ⟨layerSize E.size.width E.size.dpi, layerSize E.size.height E.size.dpi⟩

/-- The settings of a rectangle: without a position it is in the middle of the page, without a size it covers the
page; `style` has everything the style settings say. -/
def RectMeans (cmds : List Expr) (position size : Vec2) (style : Compound) : Prop :=
  (∀ c ∈ cmds, ∃ n, nameOf c = some n ∧
    ((n = "position".toList ∧ ∃ v, IsPosition E (argsOf c) v) ∨ (n = "size".toList ∧ ∃ v, IsExtent E (argsOf c) v) ∨
      StyleSetting E n (argsOf c))) ∧
  Final (IsPosition E) "position".toList cmds ⟨(page E).x / 2, (page E).y / 2⟩ position ∧
  Final (IsExtent E) "size".toList cmds (page E) size ∧
  StyleMeans E cmds style

/-- The outline of a rectangle with this centre and size. -/
def rectangle (centre size : Vec2) : Path :=
  [.moveTo (centre.x + size.x / 2) (centre.y + size.y / 2), .lineTo (centre.x + size.x / 2) (centre.y - size.y / 2),
   .lineTo (centre.x - size.x / 2) (centre.y - size.y / 2), .lineTo (centre.x - size.x / 2) (centre.y + size.y / 2), .close]

/-- The style, or the default one if it is empty. -/
def orDefault (style default : Compound) : Compound :=
  match style with
  | ⟨[], [], [], []⟩ => default
  | s => s

/-- The argument is a text. -/
def IsText (args : List Expr) (t : Str) : Prop := ∃ rest, args = .literal t :: rest ∨ args = .value t :: rest

/-- The settings of a text element. -/
def TextMeans {φ : Type} (loadFont : Str → Option φ) (layerFonts : List φ) (cmds : List Expr) (text : Str) (position : Vec2)
    (fonts : List φ) (fontSize : ℝ) (style : Compound) : Prop :=
  (∀ c ∈ cmds, ∃ n, nameOf c = some n ∧
    ((n = "position".toList ∧ ∃ v, IsPosition E (argsOf c) v) ∨ (n = "text".toList ∧ ∃ t, IsText (argsOf c) t) ∨
      (n = "font".toList ∧ ∃ t f, IsText (argsOf c) t ∧ loadFont t = some f) ∨
      (n = "font-size".toList ∧ ∃ v, IsSize E (argsOf c) v) ∨ StyleSetting E n (argsOf c))) ∧
  Final IsText "text".toList cmds [] text ∧
  Final (IsPosition E) "position".toList cmds ⟨(page E).x / 2, (page E).y / 2⟩ position ∧
  Final (IsSize E) "font-size".toList cmds (layerSize E.size.fontSize E.size.dpi) fontSize ∧
  (∃ own, List.Forall₂ (fun args f => ∃ t, IsText args t ∧ loadFont t = some f) (allArgs "font".toList cmds) own ∧
    fonts = own.reverse ++ layerFonts) ∧
  StyleMeans E cmds style

/-! ## Setting text -/

/-- The runs of a text whose characters have these embedding levels: together they are the text, all characters of a run
have the level of the run, neighbouring runs have different levels; an odd level means right to left. -/
def IsRuns (levels : List Nat) (text : Str) (runs : List (TextRun × Nat)) : Prop :=
  (runs.map fun r => r.1.text).flatten = text ∧
  (runs.map fun r => List.replicate r.1.text.length r.2).flatten = levels ∧
  (∀ r ∈ runs, r.1.text ≠ [] ∧ (r.1.dir = .rtl ↔ r.2 % 2 = 1)) ∧
  runs.IsChain fun r r' => r.2 ≠ r'.2

/-- The order in which the runs of a left-to-right line are displayed, from left to right (rule L2 of the Unicode
bidirectional algorithm). -/
def VisualOrder (levels : List Nat) (order : List Nat) : Prop :=
  order.Perm (List.range levels.length) ∧ ∀ i j m, i < j → j < levels.length → Bidi.LeastBetween levels i j m →
    (Bidi.Before order i j ↔ m % 2 = 0) ∧ (Bidi.Before order j i ↔ m % 2 = 1)

/-- The glyphs of a run: from the first font that has all glyphs for it, or from the last font.  Glyph 0 of a font is
the missing glyph. -/
def Shaped {φ : Type} (run : φ → Option (List (GlyphInfo (φ × Nat)))) (fonts : List φ) (gs : List (GlyphInfo (φ × Nat))) :
    Prop :=
  (fonts = [] ∧ gs = []) ∨
  ∃ before f after, fonts = before ++ f :: after ∧
    (∀ f' ∈ before, ∃ gs', run f' = some gs' ∧ ∃ g ∈ gs', g.glyph.2 = 0) ∧
    run f = some gs ∧ (after = [] ∨ ∀ g ∈ gs, g.glyph.2 ≠ 0)

/-- The glyphs of a left-to-right line of text, in the order in which they are displayed. -/
def Typeset {φ : Type} (T : TextEnv φ) (fonts : List φ) (sizePt dpi : ℝ) (text : Str) (glyphs : List (GlyphInfo (φ × Nat))) :
    Prop :=
  ∃ levels runs order shaped, T.levels .ltr text = some levels ∧ IsRuns levels text runs ∧
    VisualOrder (runs.map (·.2)) order ∧
    List.Forall₂ (fun i gs => ∃ r, runs[i]? = some r ∧ Shaped (fun f => T.shapeRun f r.1 sizePt dpi) fonts gs) order shaped ∧
    glyphs = shaped.flatten

/-- All points of a path command changed. -/
def onPoints (f : Vec2 → Vec2) : PathCmd → PathCmd
  | .moveTo x y => .moveTo (f ⟨x, y⟩).x (f ⟨x, y⟩).y
  | .lineTo x y => .lineTo (f ⟨x, y⟩).x (f ⟨x, y⟩).y
  | .quadTo a b x y => .quadTo (f ⟨a, b⟩).x (f ⟨a, b⟩).y (f ⟨x, y⟩).x (f ⟨x, y⟩).y
  | .cubicTo a b c d x y => .cubicTo (f ⟨a, b⟩).x (f ⟨a, b⟩).y (f ⟨c, d⟩).x (f ⟨c, d⟩).y (f ⟨x, y⟩).x (f ⟨x, y⟩).y
  | .close => .close

/-- A path moved by a vector. -/
def moved (v : Vec2) (p : Path) : Path := p.map (onPoints fun q => ⟨q.x + v.x, q.y + v.y⟩)

/-- The point turned clockwise by `a` degrees about `c` (in the plane of complex numbers). -/
def turned (c : Vec2) (a : ℝ) (q : Vec2) : Vec2 :=
  let z : ℂ := Complex.exp (-(a * Real.pi / 180 : ℝ) * Complex.I) * ((q.x - c.x : ℝ) + (q.y - c.y : ℝ) * Complex.I)
  ⟨c.x + z.re, c.y + z.im⟩

/-- `t` is the greatest of the values and zero. -/
def Top (vs : List ℝ) (t : ℝ) : Prop := (t = 0 ∨ t ∈ vs) ∧ 0 ≤ t ∧ ∀ v ∈ vs, v ≤ t

/-- `b` is the least of the values and zero. -/
def Bottom (vs : List ℝ) (b : ℝ) : Prop := (b = 0 ∨ b ∈ vs) ∧ b ≤ 0 ∧ ∀ v ∈ vs, b ≤ v

/-- Glyphs with these outlines are placed one after the other on a base line that begins at `start`. -/
def Placed {γ : Type} (start : Vec2) (style : Compound) (glyphs : List (GlyphInfo γ)) (outlines : List Path)
    (shapes : List DrawCmd) : Prop :=
  shapes.length = glyphs.length ∧ outlines.length = glyphs.length ∧
  ∀ (k : Nat) p, outlines[k]? = some p →
    shapes[k]? = some ⟨moved ⟨start.x + ((glyphs.take k).map (·.advance)).sum, start.y⟩ p, style, false⟩

/-- A line of this width that begins at `start` and extends from `bottom` to `top` about the base line has the given
alignment to the point. -/
def Aligned (start : Vec2) (width bottom top : ℝ) (point : Vec2) (ax : HAlign) (ay : VAlign) : Prop :=
  (match ax with
   | .left => start.x = point.x
   | .center => start.x + width / 2 = point.x
   | .right => start.x + width = point.x) ∧
  (match ay with
   | .top => start.y + top = point.y
   | .center => start.y + (bottom + top) / 2 = point.y
   | .bottom => start.y + bottom = point.y)

/-- The shapes that show a left-to-right line of text in the given fonts and size (in device units, of which there are
`dpi` to the inch and 72 points to the inch), aligned to a point of the page. -/
def TextShapes {φ : Type} (T : TextEnv φ) (fonts : List φ) (size dpi : ℝ) (text : Str) (point : Vec2) (ax : HAlign)
    (ay : VAlign) (style : Compound) (shapes : List DrawCmd) : Prop :=
  ∃ glyphs outlines start top bottom,
    Typeset T fonts (size / dpi * 72) dpi text glyphs ∧
    List.Forall₂ (fun g p => T.glyphPath g.glyph.1 (size / dpi * 72) dpi g.glyph.2 = some p) glyphs outlines ∧
    Top (glyphs.map (·.ascender)) top ∧ Bottom (glyphs.map (·.descender)) bottom ∧
    Aligned start (glyphs.map (·.advance)).sum bottom top point ax ay ∧
    Placed start style glyphs outlines shapes

/-- The page with further shapes drawn on it, and nothing else changed. -/
def draw {φ : Type} (L : Layer φ) (shapes : List DrawCmd) : Layer φ := { L with drawlist := L.drawlist ++ shapes }

/-- The embedding levels of a text are one for each character. -/
def LevelsOfChars {φ : Type} (T : TextEnv φ) : Prop :=
  ∀ dir text levels, T.levels dir text = some levels → levels.length = text.length

/-- What one command of the draw module adds to the page. -/
inductive Draws {φ : Type} (T : TextEnv φ) (stod : Str → Option (ℝ × Nat)) (L : Layer φ) (c : Expr) (shapes : List DrawCmd) : Prop
  | rectangle {position size style} : nameOf c = some "rectangle".toList →
      RectMeans (L.env stod) (argsOf c) position size style →
      shapes = [⟨rectangle position size, orDefault style L.defaultStyle, false⟩] → Draws T stod L c shapes
  | text {text position fonts size style} : nameOf c = some "text".toList →
      TextMeans (L.env stod) T.loadFont L.fonts (argsOf c) text position fonts size style → text ≠ [] →
      TextShapes T fonts size L.size.dpi text position .center .center (orDefault style L.defaultStyle) shapes →
      Draws T stod L c shapes

/-! ## Document settings -/

/-- The units of sheet and font sizes, with their factors; `em` and percentages are relative. -/
def measureUnits : List (String × MUnit × ℝ) :=
  [("mm", .mm, 1), ("px", .px, 1), ("pt", .pt, 1), ("em", .rem, 1), ("rem", .rem, 1), ("%", .rel, 1 / 100), ("rel", .rel, 1)]

/-- The text is a number, with or without a unit. -/
def MeasureText (stod : Str → Option (ℝ × Nat)) (s : Str) (m : Measure) : Prop :=
  ∃ v pos, stod s = some (v, pos) ∧ ((pos = s.length ∧ m = ⟨.user, v⟩) ∨
    pos ≠ s.length ∧ ∃ u unit k, (u, unit, k) ∈ measureUnits ∧ s.drop pos = u.toList ∧ m = ⟨unit, v * k⟩)

/-- The size of a sheet: a paper format or a width and a height. -/
inductive IsSheet (stod : Str → Option (ℝ × Nat)) : List Expr → Measure × Measure → Prop
  | paper {a name w h} : IsText [a] name → (name, w, h) ∈ paperSizes → IsSheet stod [a] (⟨.mm, w⟩, ⟨.mm, h⟩)
  | size {a b s t w h} : IsText [a] s → IsText [b] t → MeasureText stod s w → MeasureText stod t h →
      IsSheet stod [a, b] (w, h)

/-- One argument, a plain number. -/
def IsDpi (stod : Str → Option (ℝ × Nat)) (args : List Expr) (v : ℝ) : Prop :=
  ∃ a, args = [a] ∧ exprToFloat stod a = .ok v

/-- One argument, a size. -/
def IsFontSize (stod : Str → Option (ℝ × Nat)) (args : List Expr) (m : Measure) : Prop :=
  ∃ a s, args = [a] ∧ IsText [a] s ∧ MeasureText stod s m

/-- One argument, the name of a font. -/
def IsFontName {φ : Type} (loadFont : Str → Option φ) (args : List Expr) (f : φ) : Prop :=
  ∃ a t, args = [a] ∧ IsText [a] t ∧ loadFont t = some f

/-- The page after the settings of a document, and the module they select. -/
def PageMeans {φ : Type} (T : TextEnv φ) (stod : Str → Option (ℝ × Nat)) (set : List Expr) (L L' : Layer φ)
    (module : Str) : Prop :=
  (∀ c ∈ set, ∃ n, nameOf c = some n ∧
    ((n = "class".toList ∧ ∃ t, IsText (argsOf c) t) ∨ (n = "size".toList ∧ ∃ v, IsSheet stod (argsOf c) v) ∨
      (n = "dpi".toList ∧ ∃ v, IsDpi stod (argsOf c) v) ∨ (n = "font".toList ∧ ∃ f, IsFontName T.loadFont (argsOf c) f) ∨
      (n = "font-size".toList ∧ ∃ v, IsFontSize stod (argsOf c) v))) ∧
  Final IsText "class".toList set "plot".toList module ∧
  Final (IsSheet stod) "size".toList set (L.size.width, L.size.height) (L'.size.width, L'.size.height) ∧
  Final (IsDpi stod) "dpi".toList set L.size.dpi L'.size.dpi ∧
  Final (IsFontSize stod) "font-size".toList set L.size.fontSize L'.size.fontSize ∧
  (∃ own, List.Forall₂ (IsFontName T.loadFont) (allArgs "font".toList set) own ∧ L'.fonts = own.reverse ++ L.fonts) ∧
  L'.background = L.background ∧ L'.palette = L.palette ∧ L'.defaultStyle = L.defaultStyle ∧ L'.drawlist = L.drawlist

end
end Clip.Pictures
