import Verif.Spec.WholePlot
/-!
# The same picture at another resolution (specification)

A page has a number of pixels per inch.  With `k` times as many, every shape should be `k` times as large in pixels.
-/
namespace Clip.Enlarge
open Settings Drawing Pictures Options
noncomputable section
variable {φ : Type}

/-! ## Larger pictures -/

/-- The point, `k` times as far from the origin. -/
def point (k : ℝ) (p : Vec2) : Vec2 := ⟨k * p.x, k * p.y⟩

/-- All points of a path. -/
def path (k : ℝ) (p : Path) : Path := p.map (onPoints (point k))

/-- The lengths of a style: widths of lines, dashes and hatches. -/
def style (k : ℝ) (s : Compound) : Compound where
  fillSolid := s.fillSolid
  fillHatch := s.fillHatch.map fun h => ⟨h.color, h.angle, k * h.offset, k * h.stride, k * h.width⟩
  strokeSolid := s.strokeSolid.map fun l => ⟨l.color, k * l.width⟩
  strokeDash := s.strokeDash.map fun l => ⟨l.color, k * l.width, l.pattern.map (k * ·), k * l.offset⟩

/-- The shape, `k` times as large. -/
def shape (k : ℝ) (c : DrawCmd) : DrawCmd := ⟨path k c.path, style k c.style, c.crisp⟩

/-- `M` is the page `L` with `k` times the resolution, and everything on it `k` times as large. -/
structure Page (k : ℝ) (L M : Layer φ) : Prop where
  dpi : M.size.dpi = k * L.size.dpi
  width : layerSize M.size.width M.size.dpi = k * layerSize L.size.width L.size.dpi
  height : layerSize M.size.height M.size.dpi = k * layerSize L.size.height L.size.dpi
  fontSize : layerSize M.size.fontSize M.size.dpi = k * layerSize L.size.fontSize L.size.dpi
  fonts : M.fonts = L.fonts
  palette : M.palette = L.palette
  background : M.background = L.background
  shapes : M.drawlist = L.drawlist.map (shape k)

/-- Fonts that look the same at every resolution: a glyph of the same size in points has the same outline, only larger. -/
structure ScalableFonts (T : TextEnv φ) (k : ℝ) : Prop where
  shape : ∀ f run size dpi, T.shapeRun f run size (k * dpi) = (T.shapeRun f run size dpi).map fun gs => gs.map fun g =>
    ⟨g.glyph, k * g.advance, k * g.ascender, k * g.descender⟩
  outline : ∀ f size dpi g, T.glyphPath f size (k * dpi) g = (T.glyphPath f size dpi g).map (path k)

/-! ## Plots without pixels -/

/-- The first argument is not a number of pixels. -/
def NotPixels (stod : Str → Option (ℝ × Nat)) (args : List Expr) : Prop :=
  ∀ e rest s v pos, args = e :: rest → (e = .literal s ∨ e = .value s) → stod s = some (v, pos) → s.drop pos ≠ ['p', 'x']

/-- The options that are a length. -/
def lengthOptions : List String := ["stroke-width", "stroke-high-width", "stroke-low-width", "marker-size", "label-font-size",
  "size", "size-x", "size-y", "width", "offset", "title-font-size", "font-size", "border-width", "margin", "margin-top",
  "margin-right", "margin-bottom", "margin-left", "padding", "padding-top", "padding-right", "padding-bottom", "padding-left",
  "border-top-width", "border-right-width", "border-bottom-width", "border-left-width", "item-row-padding",
  "item-column-padding", "label-margin", "marker-margin"]

/-- The options that take lengths in pixels, or any unit for pixels. -/
def pixelOptions : List String := ["label-padding", "title-padding", "tick-length", "sizes", "size-map", "widths", "offsets"]

/-- The options for patterns of lines and fills. -/
def patternOptions : List String := ["stroke-style", "stroke-high-style", "stroke-low-style", "fill"]

/-- A pattern with settings of its own. -/
def OwnPattern (args : List Expr) : Prop :=
  ∃ w ∈ ["hatch", "hatched", "dash", "dashed"], ∃ k e es rest, IsWord k w ∧ args = .list (k :: e :: es) :: rest

/-- An option in which there are no pixels. -/
structure Plain (stod : Str → Option (ℝ × Nat)) (c : Expr) : Prop where
  length : ∀ n ∈ lengthOptions, nameOf c = some (String.toList n) → NotPixels stod (argsOf c)
  pixels : ∀ n ∈ pixelOptions, nameOf c ≠ some (String.toList n)
  pattern : ∀ n ∈ patternOptions, nameOf c = some (String.toList n) → ¬ OwnPattern (argsOf c)

/-- The margins of a plot. -/
def marginCommands : List String := ["margin", "margin-top", "margin-right", "margin-bottom", "margin-left"]

/-- A command of a plot in which there are no pixels; polygons have no holes. -/
structure PlainCommand (P : PlotEnv φ) (e : Expr) : Prop where
  holes : nameOf e = some "polygons".toList → ∀ c ∈ argsOf e, ∀ ps, AddPolys P (argsOf c) [] ps → ∀ p ∈ ps, p.holes = []
  margin : ∀ n ∈ marginCommands, nameOf e = some (String.toList n) → NotPixels P.stod (argsOf e)
  options : ∀ c ∈ argsOf e, Plain P.stod c
  axes : nameOf e = some "axes".toList → ∀ σ, ∀ c ∈ optionsFor σ (argsOf e), Plain P.stod c
  items : nameOf e = some "legend".toList → ∀ c ∈ argsOf e, nameOf c = some "item".toList → ∀ i ∈ argsOf c, Plain P.stod i

/-! ## Documents -/

/-- The two settings or commands are the same, but in the second document there are `k` times as many pixels per inch. -/
def MoreDots (stod : Str → Option (ℝ × Nat)) (k : ℝ) (c c' : Expr) : Prop :=
  (c' = c ∧ nameOf c ≠ some "dpi".toList) ∨
  (nameOf c = some "dpi".toList ∧ nameOf c' = some "dpi".toList ∧ ∃ v, IsDpi stod (argsOf c) v ∧ IsDpi stod (argsOf c') (k * v))

/-- A document for a sheet of paper: it says how large the page is, though not in pixels, and how many dots there are per
inch. -/
structure OnPaper (stod : Str → Option (ℝ × Nat)) (doc : List Expr) : Prop where
  dpi : ∃ c ∈ doc, nameOf c = some "dpi".toList
  size : ∃ c ∈ doc, nameOf c = some "size".toList
  noPixels : ∀ c ∈ doc, nameOf c = some "size".toList → ∀ v, IsSheet stod (argsOf c) v → v.1.unit ≠ .px ∧ v.2.unit ≠ .px
  fontSize : ∀ c ∈ doc, nameOf c = some "font-size".toList → ∀ v, IsFontSize stod (argsOf c) v → v.unit ≠ .px

end
end Clip.Enlarge
