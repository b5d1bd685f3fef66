import Verif.Model.Marker
/-!
# What the shapes of markers look like (specification)
-/
namespace Clip.Markers
noncomputable section

/-- The shapes that are characters; beside each the name of the character in the Unicode standard. -/
def glyphShapes : List (String × Char) := [
  ("circle-bullet", '\u25c9'), /- fisheye -/
  ("circle-left", '\u25d0'), /- circle with left half black -/
  ("circle-right", '\u25d1'), /- circle with right half black -/
  ("circle-top", '\u25d3'), /- circle with upper half black -/
  ("circle-bottom", '\u25d2'), /- circle with lower half black -/
  ("circle-bullet-alt", '\u2b57'), /- heavy circle with circle inside -/
  ("circle-hatch", '\u25cd'), /- circle with vertical fill -/
  ("circle-dashed", '\u25cc'), /- dotted circle -/
  ("diamond", '\u25c6'), /- black diamond -/
  ("diamond-o", '\u25c7'), /- white diamond -/
  ("diamond-bullet", '\u25c8'), /- white diamond containing black small diamond -/
  ("diamond-left", '\u2b16'), /- diamond with left half black -/
  ("diamond-right", '\u2b17'), /- diamond with right half black -/
  ("diamond-top", '\u2b18'), /- diamond with top half black -/
  ("diamond-bottom", '\u2b19'), /- diamond with bottom half black -/
  ("square", '\u25a0'), /- black square -/
  ("square-o", '\u25a1'), /- white square -/
  ("square-left", '\u25e7'), /- square with left half black -/
  ("square-right", '\u25e8'), /- square with right half black -/
  ("square-top", '\u2b12'), /- square with top half black -/
  ("square-bottom", '\u2b13'), /- square with bottom half black -/
  ("square-diag-left", '\u25e9'), /- square with upper left diagonal half black -/
  ("square-diag-right", '\u25ea'), /- square with lower right diagonal half black -/
  ("square-dotted", '\u2b1a'), /- dotted square -/
  ("square-crosshair", '\u2bd0'), /- square position indicator -/
  ("square-bullet", '\u25a3'), /- white square containing black small square -/
  ("square-hatch-horiz", '\u25a4'), /- square with horizontal fill -/
  ("square-hatch-vert", '\u25a5'), /- square with vertical fill -/
  ("square-hatch-cross", '\u25a6'), /- square with orthogonal crosshatch fill -/
  ("square-hatch-diag-left", '\u25a7'), /- square with upper left to lower right fill -/
  ("square-hatch-diag-right", '\u25a8'), /- square with upper right to lower left fill -/
  ("hexagon", '\u2b22'), /- black hexagon -/
  ("hexagon-o", '\u2b21'), /- white hexagon -/
  ("pentagon", '\u2b1f'), /- black pentagon -/
  ("pentagon-o", '\u2b20'), /- white pentagon -/
  ("compass-left", '\u2b98'), /- three-d top-lighted leftwards equilateral arrowhead -/
  ("compass-right", '\u2b9a'), /- three-d top-lighted rightwards equilateral arrowhead -/
  ("compass-top", '\u2b99'), /- three-d right-lighted upwards equilateral arrowhead -/
  ("compass-bottom", '\u2b9b'), /- three-d left-lighted downwards equilateral arrowhead -/
  ("triangle-left", '\u2bc7'), /- black medium left-pointing triangle centred -/
  ("triangle-right", '\u2bc8'), /- black medium right-pointing triangle centred -/
  ("triangle-top", '\u2bc5'), /- black medium up-pointing triangle centred -/
  ("triangle-bottom", '\u2bc6'), /- black medium down-pointing triangle centred -/
  ("triangle-left-o", '\u25c1'), /- white left-pointing triangle -/
  ("triangle-right-o", '\u25b7'), /- white right-pointing triangle -/
  ("triangle-top-o", '\u25b3'), /- white up-pointing triangle -/
  ("triangle-left-half", '\u25ed'), /- up-pointing triangle with left half black -/
  ("triangle-right-half", '\u25ee'), /- up-pointing triangle with right half black -/
  ("triangle-bottom-o", '\u25bd'), /- white down-pointing triangle -/
  ("triangle-dot", '\u25ec') /- white up-pointing triangle with dot -/
]

/-- The expression is this word, quoted or not. -/
def IsWord (e : Expr) (w : Str) : Prop := e = .literal w ∨ e = .value w

/-- What the marker described by these arguments looks like at a point and in a size. -/
inductive Looks (toFloat : Expr → Option ℝ) : List Expr → (Vec2 → ℝ → MarkerDrawing) → Prop
  | disk {e rest} : IsWord e "circle".toList →
      Looks toFloat (e :: rest) (fun pos size => .filled (pathAddCircle [] pos (size / 2)))
  | circle {e} : IsWord e "circle-o".toList →
      Looks toFloat [e] (fun pos size => .stroked (pathAddCircle [] pos (size / 2)) (size / 10))
  /-- The border is at least nothing and at most the whole radius. -/
  | circleBorder {e b rest v} : IsWord e "circle-o".toList → toFloat b = some v →
      Looks toFloat (e :: b :: rest) (fun pos size => .stroked (pathAddCircle [] pos (size / 2)) (size / 2 * max 0 (min 1 v)))
  | custom {e t rest s} : IsWord e "custom".toList → IsWord t s →
      Looks toFloat (e :: t :: rest) (fun pos size => .text s pos .center .center (6 / 5 * size))
  | glyph {e rest w c} : (w, c) ∈ glyphShapes → IsWord e w.toList →
      Looks toFloat (e :: rest) (fun pos size => .text [c] pos .center .center (6 / 5 * size))

end
end Clip.Markers
