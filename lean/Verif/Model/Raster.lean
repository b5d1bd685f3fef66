import Verif.Model.Svg
import Verif.Model.Units
/-!
# Model of `src/graphics/rasterize.cc` and `src/graphics/export_image.cc`

The drawing context of cairo is modelled by what its documentation says about the calls that are used: a current source
colour, dash pattern, line width, transformation matrix and path, and the surface, which is represented by the list of what has
been painted on it so far (`Paint`), not by pixels.  Setting a path transforms its points by the matrix; filling and
stroking paint the path and clear it.  Encoding the surface as PNG is not modelled.  Surfaces that cairo refuses to
create (wider or higher than 32767 pixels) are not distinguished.
-/
namespace Clip
noncomputable section

/-- What has been painted on an image, in device coordinates (`y` downwards). -/
inductive Paint (φ : Type) where
  /-- everything (`cairo_paint`) -/
  | all (c : Color)
  /-- the inside of a path (`cairo_fill`) -/
  | fill (outline : Path) (c : Color)
  /-- a line along a path (`cairo_stroke`): width, dash offset and pattern, and the matrix that distorts the pen -/
  | stroke (outline : Path) (c : Color) (width : ℝ) (dash : ℝ × List ℝ) (pen : Mat3)
  /-- a glyph of a font in a size (`cairo_show_glyphs`) -/
  | glyph (font : φ) (codepoint : Nat) (at_ : Vec2) (size : ℝ) (c : Color) (pen : Mat3)

/-- The cairo context and surface. -/
structure Cairo (φ : Type) where
  source : Color
  dash : ℝ × List ℝ
  lineWidth : ℝ
  matrix : Mat3
  path : Path
  font : Option φ
  fontSize : ℝ
  painted : List (Paint φ)

/-- The identity matrix. -/
def cairoIdentity : Mat3 := ⟨1, 0, 0, 0, 1, 0, 0, 0, 1⟩

/-- rasterize.cc:22-36 `Rasterizer::Rasterizer`: a new context (cairo's defaults: black, solid, width 2, font size 10). -/
def newCairo (φ : Type) : Cairo φ := ⟨Color.black, (0, []), 2, cairoIdentity, [], none, 10, []⟩

/-- The implicit conversion `double` to `uint32_t` of export_image.cc:31 (undefined outside the range). -/
def toU32 (x : ℝ) : Option ℕ := if -1 < x ∧ x < 2 ^ 32 then some ⌊x⌋₊ else none

variable {φ : Type}

/-- cairo_set_source_rgba, as called in rasterize.cc:82-87, 113-118, 161-166, 190-195. -/
def Cairo.setSource (c : Color) (k : Cairo φ) : Cairo φ := { k with source := c }

/-- rasterize.cc:51-59: the command for one path command, if any: curves have no case. -/
def cairoCmd (k : Cairo φ) (height : ℕ) : PathCmd → List PathCmd
  | .moveTo x y => let p := k.matrix.apply x (height - y); [.moveTo p.x p.y]
  | .lineTo x y => let p := k.matrix.apply x (height - y); [.lineTo p.x p.y]
  | .close => [.close]
  | .quadTo .. => []
  | .cubicTo .. => []

/-- rasterize.cc:43-61 `cairo_set_path`. -/
def cairoSetPath (height : ℕ) (path : Path) (k : Cairo φ) : Cairo φ :=
  { k with path := path.flatMap (cairoCmd k height) }

/-- cairo_fill, rasterize.cc:90. -/
def Cairo.fill (k : Cairo φ) : Cairo φ := { k with path := [], painted := k.painted ++ [.fill k.path k.source] }

/-- cairo_stroke, rasterize.cc:122. -/
def Cairo.stroke (k : Cairo φ) : Cairo φ :=
  { k with path := [], painted := k.painted ++ [.stroke k.path k.source k.lineWidth k.dash k.matrix] }

/-- draw_cmd.h:28-34 `DrawCommand` with the old styles; the antialiasing mode is not looked at here. -/
structure FullCmd where
  path : Path
  style : Compound
  stroke : StrokeStyle
  fill : FillStyle

/-- rasterize.cc:71-79: the path that is filled.  (In the code `shape_hatch` is also called if nothing is filled.) -/
def fillPath (hatch : Path → FillHatch → Path) (path : Path) (f : FillStyle) : Path :=
  match f.hatch with
  | .none => path
  | some (angle, offset, stride, width) => hatch path ⟨Color.black, angle, offset, stride, width⟩

/-- rasterize.cc:81-91, the fill. -/
def rasterFill (hatch : Path → FillHatch → Path) (height : ℕ) (c : FullCmd) (k : Cairo φ) : Cairo φ :=
  match c.fill.color with
  | .none => k
  | some col => (cairoSetPath height (fillPath hatch c.path c.fill) (k.setSource col)).fill

open Classical in
/-- rasterize.cc:93-123, the stroke. -/
def rasterStroke (height : ℕ) (c : FullCmd) (k : Cairo φ) : Cairo φ :=
  if c.stroke.width = 0 then k
  else
    let k := match c.stroke.dash with
      | .none => { k with dash := (0, []) }
      | some (offset, pattern) => { k with dash := (offset, pattern) }
    let k := k.setSource c.stroke.color
    let k := { k with lineWidth := c.stroke.width }
    (cairoSetPath height c.path k).stroke

/-- rasterize.cc:63-126 `Rasterizer::drawShape`; `none`: an error is returned. -/
def rasterShape (hatch : Path → FillHatch → Path) (height : ℕ) (c : FullCmd) (k : Cairo φ) : Option (Cairo φ) :=
  if c.path.length < 2 then none else some (rasterStroke height c (rasterFill hatch height c k))

/-- rasterize.cc:189-198 `Rasterizer::clear`. -/
def rasterClear (c : Color) (k : Cairo φ) : Cairo φ :=
  let k := k.setSource c
  { k with painted := k.painted ++ [.all k.source] }

/-- export_image.cc:34-38, the loop. -/
def rasterShapes (hatch : Path → FillHatch → Path) (height : ℕ) : List FullCmd → Cairo φ → Option (Cairo φ)
  | [], k => some k
  | c :: cs, k => (rasterShape hatch height c k).bind (rasterShapes hatch height cs)

/-- What an attempt to export an image comes to. -/
inductive ImageResult (φ : Type) where
  /-- an image of this size on which this was painted -/
  | image (width height : ℕ) (painted : List (Paint φ))
  | error
  | undefined

/-- export_image.cc:27-43 `page_export_png`. -/
def pageExportPng (hatch : Path → FillHatch → Path) (width height : ℝ) (background : Color) (drawlist : List FullCmd) :
    ImageResult φ :=
  match toU32 width, toU32 height with
  | some w, some h =>
    match rasterShapes hatch h drawlist (rasterClear background (newCairo φ)) with
    | some k => .image w h k.painted
    | none => .error
  | _, _ => .undefined

/-- style.cc:20-30: the old styles that draw nothing. -/
def noFill : FillStyle := ⟨none, none⟩

/-- style.cc:27-29 `StrokeStyle::StrokeStyle`. -/
def noStroke : StrokeStyle := ⟨0, Color.black, none⟩

open Classical in
/-- graphics/draw_cmd.cc:24-73 `draw_shape`: the command as it is put into the draw list, with its old styles. -/
def drawnCmd (c : FullCmd) : FullCmd where
  path := c.path
  style := addStroke c.stroke (addFill c.fill c.style)
  fill := match c.fill.color with
    | .none => c.fill
    | some _ => noFill
  stroke := if c.stroke.width = 0 then c.stroke else noStroke

/-! ## Text -/

/-- A group of glyphs of one font, text_layout.h:78-94: code points and positions. -/
structure GlyphGroup (φ : Type) where
  font : φ
  glyphs : List (Nat × Vec2)

/-- rasterize.cc:132-148: the matrix for the text. -/
def textMatrix (height : ℕ) : Option Mat3 → Mat3
  | some t =>
    let m := ((scale2 ⟨1, -1⟩).mul (translate2 ⟨0, -height⟩)).mul (t.mul ((translate2 ⟨0, height⟩).mul (scale2 ⟨1, -1⟩)))
    ⟨m.a, m.b, m.c, m.d, m.e, m.f, 0, 0, 1⟩
  | none => cairoIdentity

/-- rasterize.cc:150-184: one group; `sizable` is whether `FT_Set_Char_Size` succeeds. -/
def rasterGroup (sizable : φ → Bool) (height : ℕ) (dpi fontSize : ℝ) (color : Color) (g : GlyphGroup φ) (k : Cairo φ) :
    Option (Cairo φ) :=
  if sizable g.font then
    let k := k.setSource color
    let k := { k with font := some g.font, fontSize := unitToPt fontSize dpi }
    let shown := g.glyphs.map fun c =>
      Paint.glyph g.font c.1 (k.matrix.apply c.2.x (height - c.2.y)) k.fontSize k.source k.matrix
    some { k with painted := k.painted ++ shown }
  else none

/-- rasterize.cc:150-184, the loop. -/
def rasterGroups (sizable : φ → Bool) (height : ℕ) (dpi fontSize : ℝ) (color : Color) :
    List (GlyphGroup φ) → Cairo φ → Option (Cairo φ)
  | [], k => some k
  | g :: gs, k => (rasterGroup sizable height dpi fontSize color g k).bind (rasterGroups sizable height dpi fontSize color gs)

/-- rasterize.cc:128-187 `Rasterizer::drawText`. -/
def rasterText (sizable : φ → Bool) (height : ℕ) (dpi fontSize : ℝ) (color : Color) (transform : Option Mat3)
    (groups : List (GlyphGroup φ)) (k : Cairo φ) : Option (Cairo φ) :=
  rasterGroups sizable height dpi fontSize color groups { k with matrix := textMatrix height transform }

end
end Clip
