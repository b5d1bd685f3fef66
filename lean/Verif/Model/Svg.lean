import Verif.Model.Path
import Verif.Model.Format
import Verif.Model.Color
/-!
# Model of `src/graphics/export_svg.cc` and `src/graphics/draw_cmd.cc`

Coordinates are exact reals.  Hatching (`shape_hatch`) is a parameter of the export: it gives the path of a hatched
fill.  `svg_add_text_elem_native`, `svg_add_text_elem_embed` and `svg_poly_data` are called by nothing and only their
parts `svg_attr`, `svg_body` and the projection are modelled.
-/
namespace Clip
noncomputable section

/-! ## Styles and drawing commands (src/style.h, graphics/draw_cmd.h) -/

/-- style.h:75-81 `fill_hatch`. -/
structure FillHatch where
  color : Color
  angle : ℝ
  offset : ℝ
  stride : ℝ
  width : ℝ

/-- style.h:86-89 `stroke_solid`. -/
structure StrokeSolid where
  color : Color
  width : ℝ

/-- style.h:94-99 `stroke_dash`. -/
structure StrokeDash where
  color : Color
  width : ℝ
  pattern : List ℝ
  offset : ℝ

/-- style.h:111-116 `compound`. -/
structure Compound where
  fillSolid : List Color
  fillHatch : List FillHatch
  strokeSolid : List StrokeSolid
  strokeDash : List StrokeDash

/-- draw_cmd.h:28-34 `DrawCommand`, as it is in the draw list (the old `stroke_style` and `fill_style` are no longer
looked at); `crisp` is `antialiasing_mode == DISABLE`. -/
structure DrawCmd where
  path : Path
  style : Compound
  crisp : Bool

/-- The old fill style, style.h:33-42; no colour: no fill. -/
structure FillStyle where
  color : Option Color
  hatch : Option (ℝ × ℝ × ℝ × ℝ)  -- angle, offset, stride, width

/-- The old stroke style, style.h:47-60; `dash`: offset and pattern. -/
structure StrokeStyle where
  width : ℝ
  color : Color
  dash : Option (ℝ × List ℝ)

/-- style.h:111-116: nothing is drawn. -/
def Compound.none : Compound := ⟨[], [], [], []⟩

/-- graphics/draw_cmd.cc:27-42, the fill. -/
def addFill (f : FillStyle) (s : Compound) : Compound :=
  match f.color with
  | .none => s
  | some c =>
    match f.hatch with
    | some (angle, offset, stride, width) => { s with fillHatch := s.fillHatch ++ [⟨c, angle, offset, stride, width⟩] }
    | .none => { s with fillSolid := s.fillSolid ++ [c] }

open Classical in
/-- graphics/draw_cmd.cc:44-70, the stroke. -/
def addStroke (k : StrokeStyle) (s : Compound) : Compound :=
  if k.width = 0 then s
  else
    match k.dash with
    | .none => { s with strokeSolid := s.strokeSolid ++ [⟨k.color, k.width⟩] }
    | some (offset, pattern) => { s with strokeDash := s.strokeDash ++ [⟨k.color, k.width, pattern, offset⟩] }

/-- graphics/draw_cmd.cc:24-73 `draw_shape`: the draw list afterwards. -/
def drawShape (drawlist : List DrawCmd) (path : Path) (style : Compound) (stroke : StrokeStyle) (fill : FillStyle)
    (crisp : Bool) : List DrawCmd :=
  drawlist ++ [⟨path, addStroke stroke (addFill fill style), crisp⟩]

/-! ## Numbers, attributes, text (export_svg.cc) -/

open Classical in
/-- export_svg.cc:36-49 `svg_number`; whole numbers are converted to `int`, which is undefined outside its range. -/
def svgNumber (x : ℝ) : Option Str :=
  if (⌊x⌋ : ℝ) = x then
    if -2 ^ 31 ≤ ⌊x⌋ ∧ ⌊x⌋ < 2 ^ 31 then some (intText ⌊x⌋) else .none
  else some (fixedText 3 x)

/-- export_svg.cc:57-66: the characters of an attribute value. -/
def svgAttrEscape (val : Str) : Str := val.flatMap fun c => if c = '"' then ['\\', '"'] else [c]

/-- export_svg.cc:51-70 `svg_attr(name, val)`. -/
def svgAttr (name val : Str) : Str := ' ' :: name ++ ['=', '"'] ++ svgAttrEscape val ++ ['"']

/-- export_svg.cc:80-82 `svg_attr(name, number)`. -/
def svgAttrNum (name : Str) (x : ℝ) : Option Str := (svgNumber x).map (svgAttr name)

open Classical in
/-- export_svg.cc:72-78, 84-90 `svg_attr(…, pred)`. -/
def svgWhen (p : Prop) (s : Option Str) : Option Str := if p then s else some []

/-- export_svg.cc:92-113 `svg_body`. -/
def svgBody (s : Str) : Str :=
  s.flatMap fun c =>
    if c = '&' then ['&', 'a', 'm', 'p', ';'] else if c = '<' then ['&', 'l', 't', ';']
    else if c = '>' then ['&', 'g', 't', ';'] else [c]

/-- The letter and the numbers of a path command, export_svg.cc:123-156. -/
def svgCmdParts : PathCmd → Char × List ℝ
  | .moveTo x y => ('M', [x, y])
  | .lineTo x y => ('L', [x, y])
  | .quadTo cx cy x y => ('Q', [cx, cy, x, y])
  | .cubicTo c1x c1y c2x c2y x y => ('C', [c1x, c1y, c2x, c2y, x, y])
  | .close => ('Z', [])

/-- `fmt::format("… {} {}", …)`: texts with blanks in between. -/
def joinSp : List Str → Str
  | [] => []
  | [t] => t
  | t :: ts => t ++ ' ' :: joinSp ts

/-- export_svg.cc:123-156: one path command. -/
def svgCmd (c : PathCmd) : Option Str :=
  ((svgCmdParts c).2.mapM svgNumber).map fun ts => (svgCmdParts c).1 :: joinSp ts

/-- export_svg.cc:115-159 `svg_path_data`. -/
def svgPathData (p : Path) : Option Str := (p.mapM svgCmd).map joinSp

/-! ## Elements -/

/-- export_svg.cc:193-194 and the like: the fill attributes. -/
def svgFill (c : Color) : Option Str := do
  let a ← svgWhen (¬ colorIsBlack c) (some (svgAttr "fill".toList (colorHexStr c false)))
  let b ← svgWhen (c.a ≠ 1) (svgAttrNum "fill-opacity".toList c.a)
  return a ++ b

/-- export_svg.cc:195-197 and the like: the stroke attributes. -/
def svgStroke (c : Color) (width : ℝ) : Option Str := do
  let b ← svgWhen (c.a ≠ 1) (svgAttrNum "stroke-opacity".toList c.a)
  let w ← svgAttrNum "stroke-width".toList width
  return svgAttr "stroke".toList (colorHexStr c false) ++ b ++ w

/-- export_svg.cc:177-184 `svg_antialiasing_attrs`. -/
def svgAA (crisp : Bool) : Str := if crisp then svgAttr "shape-rendering".toList "crispEdges".toList else []

/-- export_svg.cc:455: the projection of a page of this height. -/
def svgProj (height : ℝ) : Mat3 := (translate2 ⟨0, height⟩).mul (scale2 ⟨1, -1⟩)

/-- The path element around its attributes. -/
def svgPathElem (d : Str) (attrs : Str) : Str :=
  "  <path".toList ++ svgAttr ['d'] d ++ attrs ++ "/>\n".toList

/-- export_svg.cc:186-205 `svg_add_path_compound`. -/
def svgCompound (height : ℝ) (path : Path) (fill : Color) (stroke : StrokeSolid) (crisp : Bool) : Option Str := do
  let d ← svgPathData (pathTransform path (svgProj height))
  let f ← svgFill fill
  let s ← svgStroke stroke.color stroke.width
  return svgPathElem d (f ++ s ++ svgAA crisp)

/-- export_svg.cc:207-223 `svg_add_path_fill_solid`; with the hatched path also `svg_add_path_fill_hatch`
(export_svg.cc:225-248). -/
def svgFillElem (height : ℝ) (path : Path) (fill : Color) (crisp : Bool) : Option Str := do
  let d ← svgPathData (pathTransform path (svgProj height))
  let f ← svgFill fill
  return svgPathElem d (f ++ svgAA crisp)

/-- export_svg.cc:250-268 `svg_add_path_stroke_solid`. -/
def svgStrokeElem (height : ℝ) (path : Path) (s : StrokeSolid) (crisp : Bool) : Option Str := do
  let d ← svgPathData (pathTransform path (svgProj height))
  let k ← svgStroke s.color s.width
  return svgPathElem d (svgAttr "fill".toList "none".toList ++ k ++ svgAA crisp)

/-- export_svg.cc:270-300 `svg_add_path_stroke_dash`. -/
def svgDashElem (height : ℝ) (path : Path) (s : StrokeDash) (crisp : Bool) : Option Str := do
  let pat ← (s.pattern.mapM svgNumber).map joinSp
  let d ← svgPathData (pathTransform path (svgProj height))
  let k ← svgStroke s.color s.width
  let o ← svgAttrNum "stroke-dashoffset".toList s.offset
  return svgPathElem d
    (svgAttr "fill".toList "none".toList ++ k ++ svgAttr "stroke-dasharray".toList pat ++ o ++ svgAA crisp)

/-- export_svg.cc:302-353 `svg_add_path`. -/
def svgAddPath (hatch : Path → FillHatch → Path) (height : ℝ) (c : DrawCmd) : Option (List Str) :=
  match c.style.fillSolid, c.style.fillHatch, c.style.strokeSolid, c.style.strokeDash with
  | [f], [], [s], [] => (svgCompound height c.path f s c.crisp).map fun t => [t]
  | fs, hs, ss, ds => do
    let a ← fs.mapM fun f => svgFillElem height c.path f c.crisp
    let b ← hs.mapM fun h => svgFillElem height (hatch c.path h) h.color c.crisp
    let k ← ss.mapM fun s => svgStrokeElem height c.path s c.crisp
    let d ← ds.mapM fun s => svgDashElem height c.path s c.crisp
    return a ++ b ++ k ++ d

/-- The parts of the layer that are exported. -/
structure SvgLayer where
  width : ℝ
  height : ℝ
  background : Color
  cmds : List DrawCmd

/-- export_svg.cc:445-490 `export_svg`. -/
def exportSvg (version : Str) (hatch : Path → FillHatch → Path) (l : SvgLayer) : Option Str := do
  let elems ← l.cmds.mapM (svgAddPath hatch l.height)
  let w ← svgAttrNum "width".toList l.width
  let h ← svgAttrNum "height".toList l.height
  let o ← svgAttrNum "fill-opacity".toList l.background.a
  return "<?xml version=\"1.0\" encoding=\"UTF-8\" ?>\n".toList ++
    "<!-- Generated by clip v".toList ++ version ++ " (clip-lang.org) -->\n".toList ++
    "<svg".toList ++ svgAttr "xmlns".toList "http://www.w3.org/2000/svg".toList ++ w ++ h ++ ">\n".toList ++
    "  <rect".toList ++ w ++ h ++ svgAttr "fill".toList (colorHexStr l.background false) ++ o ++ "/>\n".toList ++
    elems.flatten.flatten ++ "</svg>\n".toList

end
end Clip
