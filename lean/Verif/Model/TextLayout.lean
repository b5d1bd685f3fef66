import Verif.Model.Outcome
import Verif.Model.Path
/-!
# Model of `src/graphics/text_support.cc` and `src/graphics/text_layout.cc`

The bidirectional analysis (`text_analyze_bidi_line`, fribidi) and the shaper (`text_shape_run_with_font_fallback`,
harfbuzz) are parameters: they give the spans with their embedding levels, and the glyphs of a span.
-/
namespace Clip

/-- graphics/text.h `TextDirection`. -/
inductive TextDirection where | ltr | rtl
  deriving DecidableEq, Repr

/-- text_support.cc:60-66: the length of the run of levels not below `cur` that starts here. -/
def runLen (cur : Nat) : List Nat → Nat
  | [] => 0
  | l :: ls => if cur ≤ l then runLen cur ls + 1 else 0

theorem runLen_le (cur : Nat) (ls : List Nat) : runLen cur ls ≤ ls.length := by
  induction ls with
  | nil => simp [runLen]
  | cons l ls ih => simp only [runLen, List.length_cons]; split <;> omega

/-- text_support.cc:59-82: one round of the outer loop, from `range_begin` on: the elements before it are not touched
again. -/
def levelPass {α : Type} (cur : Nat) (levels : List Nat) (order : List α) : List α :=
  match levels with
  | [] => order
  | l :: ls =>
    if runLen cur (l :: ls) = 0 then order.take 1 ++ levelPass cur ls (order.drop 1)
    else
      (order.take (runLen cur (l :: ls))).reverse ++
        levelPass cur ((l :: ls).drop (runLen cur (l :: ls))) (order.drop (runLen cur (l :: ls)))
termination_by levels.length
decreasing_by
  · simp
  · simp only [List.length_drop, List.length_cons]; omega

/-- text_support.cc:58: the rounds from level `c` down to 1. -/
def levelPasses {α : Type} (levels : List Nat) : Nat → List α → List α
  | 0, order => order
  | c + 1, order => levelPasses levels c (levelPass (c + 1) levels order)

/-- text_support.cc:46-92, the visual order; `*std::max_element` of no levels is undefined.  The comparison
`bidi_levels[range_end] >= level_cur` at `range_end == size()` (text_support.cc:63-64) is evaluated before the bound is
checked; the value read there has no influence on the result and is not modelled. -/
def visualOrder (levels : List Nat) (dir : TextDirection) : Option (List Nat) :=
  match levels with
  | [] => none
  | l :: ls =>
    let order := levelPasses (l :: ls) (ls.foldl max l) (List.range (l :: ls).length)
    some (match dir with
      | .ltr => order
      | .rtl => order.reverse)

/-- text_support.cc:22-102 `text_reorder_bidi_line`, after the analysis into spans and levels. -/
def reorderBidiLine {α : Type} (spans : List α) (levels : List Nat) (dir : TextDirection) : Option (List α) :=
  (visualOrder levels dir).map fun order => order.filterMap fun i => spans[i]?

/-! ## Line layout -/

/-- text.h `GlyphInfo`: what the shaper returns. -/
structure GlyphInfo (γ : Type) where
  glyph : γ
  advance : ℝ
  ascender : ℝ
  descender : ℝ

/-- text.h `GlyphPlacement`, as far as it is used here: the glyph and its position. -/
structure GlyphPlacement (γ : Type) where
  glyph : γ
  x : ℝ
  y : ℝ

noncomputable section

/-- text_layout.cc:23-60 `text_layout_span`: glyphs, length, top and bottom so far. -/
def layoutSpan {γ : Type} : List (GlyphInfo γ) → ℝ → ℝ → ℝ → List (GlyphPlacement γ) × ℝ × ℝ × ℝ
  | [], length, top, bottom => ([], length, top, bottom)
  | g :: gs, length, top, bottom =>
    let r := layoutSpan gs (length + g.advance) (max g.ascender top) (min g.descender bottom)
    (⟨g.glyph, length, 0⟩ :: r.1, r.2)

/-- text_layout.cc:67-107, the loop over the spans of a line; `shape` gives the glyphs of a span or fails. -/
def layoutSpans {σ γ ε : Type} (shape : σ → Except ε (List (GlyphInfo γ))) (dir : TextDirection) :
    List σ → ℝ → ℝ → ℝ → Except ε (List (GlyphPlacement γ) × ℝ × ℝ × ℝ)
  | [], length, top, bottom => .ok ([], length, top, bottom)
  | s :: ss, length, top, bottom =>
    match shape s with
    | .error e => .error e
    | .ok gs =>
      let (placed, spanLength, top, bottom) := layoutSpan gs 0 top bottom
      let placed := placed.map fun p => match dir with
        | .ltr => { p with x := p.x + length }
        | .rtl => { p with x := p.x - length - spanLength }
      match layoutSpans shape dir ss (length + spanLength) top bottom with
      | .error e => .error e
      | .ok (rest, r) => .ok (placed ++ rest, r)

/-- text_layout.cc:62-126 `text_layout_line`: the glyphs and the bounding box. -/
def layoutLine {σ γ ε : Type} (shape : σ → Except ε (List (GlyphInfo γ))) (dir : TextDirection) (spans : List σ) :
    Except ε (List (GlyphPlacement γ) × Rect) :=
  match layoutSpans shape dir spans 0 0 0 with
  | .error e => .error e
  | .ok (glyphs, length, top, bottom) =>
    let left := match dir with
      | .ltr => 0
      | .rtl => -length
    .ok (glyphs, ⟨left, bottom, length, top - bottom⟩)

end
end Clip
