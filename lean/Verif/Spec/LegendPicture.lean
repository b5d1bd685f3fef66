import Verif.Spec.ElementPictures
import Verif.Spec.Geometry
import Verif.Model.Legend
/-!
# What a legend looks like (specification)

Coordinates on the page grow to the right and up; inside the legend they are measured from the upper left corner of its
content, to the right and down.
-/
namespace Clip.LegendSpec
open Pictures PlotSpec AxisSpec Elements
noncomputable section
variable {φ : Type}

/-! ## Sizes and places -/

/-- The size of an item: that of its label, and its margin.  The marker is not taken into account. -/
def ItemSize (T : TextEnv φ) (dpi : ℝ) (i : LegendItem φ) (size : ℝ × ℝ) : Prop :=
  ∃ w h, Extents T i.labelFonts i.labelFontSize dpi i.label w h ∧ size = (w + i.labelMargin, h)

open Classical in
/-- The length of things put one after the other at the distance `pad`; there is no distance from things that, together,
have no length. -/
def runLength (pad : ℝ) (lengths : List ℝ) : ℝ := lengths.foldl (fun sum l => (if 0 < sum then sum + pad else sum) + l) 0

open Classical in
/-- Where the next one begins. -/
def next (pad : ℝ) (lengths : List ℝ) : ℝ := if 0 < runLength pad lengths then runLength pad lengths + pad else runLength pad lengths

/-- The greatest of the lengths, or 0. -/
def greatest (lengths : List ℝ) : ℝ := lengths.foldl max 0

/-- Items one below the other. -/
def Stacked (pad : ℝ) (sizes : List (ℝ × ℝ)) (boxes : List Rect) (w h : ℝ) : Prop :=
  boxes = sizes.mapIdx (fun i e => ⟨0, next pad ((sizes.take i).map (·.2)), e.1, e.2⟩) ∧
    w = greatest (sizes.map (·.1)) ∧ h = runLength pad (sizes.map (·.2))

/-- Rows of items, filled from the left: the next row begins with the first item that has no room in the row. -/
structure Broken (pad width : ℝ) (rows : List (List (ℝ × ℝ))) : Prop where
  some : rows ≠ []
  /-- An item is in the same row as the one before it only if there is room. -/
  fits : ∀ row ∈ rows, ∀ n, 2 ≤ n → n ≤ row.length → runLength pad ((row.take n).map (·.1)) ≤ width
  /-- The first row begins with an item only if there is room. -/
  first : ∀ e row, rows.head? = .some (e :: row) → e.1 ≤ width
  /-- Rows are not broken without need. -/
  full : ∀ k row e next, rows[k]? = .some row → rows[k + 1]? = .some (e :: next) →
    width < runLength pad ((row ++ [e]).map (·.1))
  /-- Only the first row may be empty. -/
  rest : ∀ k, rows[k + 1]? ≠ .some []

/-- The height of a row. -/
def rowHeight (row : List (ℝ × ℝ)) : ℝ := greatest (row.map (·.2))

/-- The boxes of a row that begins at the height `y`; they are as high as the row. -/
def rowBoxes (pad y : ℝ) (row : List (ℝ × ℝ)) : List Rect :=
  row.mapIdx fun i e => ⟨next pad ((row.take i).map (·.1)), y, e.1, rowHeight row⟩

/-- Items in rows. -/
def Flowing (rowPad colPad width : ℝ) (sizes : List (ℝ × ℝ)) (boxes : List Rect) (w h : ℝ) : Prop :=
  ∃ rows, rows.flatten = sizes ∧ Broken colPad width rows ∧
    boxes = (rows.mapIdx fun k row => rowBoxes colPad ((rows.take k).map fun r => rowHeight r + rowPad).sum row).flatten ∧
    w = greatest (boxes.map fun b => b.x + b.w) ∧ h = (rows.map rowHeight).sum + rowPad * (rows.length - 1)

/-! ## The picture -/

/-- The part of `r` (or all of it) with this size that is at the given position. -/
def placed (ax : HAlign) (ay : VAlign) (r : Rect) (w h : ℝ) : Rect :=
  let fx := match ax with | .left => 0 | .center => 1 / 2 | .right => 1
  let fy := match ay with | .bottom => 0 | .center => 1 / 2 | .top => 1
  ⟨r.x + fx * (r.w - min w r.w), r.y + fy * (r.h - min h r.h), min w r.w, min h r.h⟩

/-- A box inside the legend, on the page. -/
def onPage (content b : Rect) : Rect := ⟨content.x + b.x, content.y + content.h - (b.y + b.h), b.w, b.h⟩

/-- The point in the middle of the left or right side of a box, moved inwards (there is no other alignment). -/
def sidePoint (b : Rect) (side : HAlign) (d : ℝ) : Vec2 :=
  match side with
  | .left => right d (at_ b 0 (1 / 2))
  | .right => right (-d) (at_ b 1 (1 / 2))
  | .center => ⟨0, 0⟩

/-- An item: the label, then the marker. -/
def ItemPicture (T : TextEnv φ) (s : PlotState φ) (i : LegendItem φ) (b : Rect) : List DrawCmd → Prop :=
  InOrder [Text T i.labelFonts i.labelFontSize s.layer.size.dpi i.labelColor i.label (sidePoint b i.labelAlign i.labelMargin)
      i.labelAlign .center,
    MarkerAt T s.layer.fonts s.layer.size.dpi i.marker (sidePoint b i.markerAlign i.markerMargin) i.markerSize i.markerColor]

open Classical in
/-- A border, if it has a width; always solid. -/
def Border (k : StrokeState) (p q : Vec2) (shapes : List DrawCmd) : Prop :=
  shapes = if 0 < k.width then [⟨polyline [p, q], ⟨[], [], [⟨k.color, k.width⟩], []⟩, false⟩] else []

/-- The picture of a legend: background, borders, items.  The border called "top" is along the lower edge and the one called
"bottom" along the upper edge. -/
def LegendPicture (P : PlotEnv φ) (s : PlotState φ) (c : LegendConf φ) (shapes : List DrawCmd) : Prop :=
  let parent := inset s.clip c.margins.1 c.margins.2.1 c.margins.2.2.1 c.margins.2.2.2
  let padX := c.padding.2.1 + c.padding.2.2.2
  let padY := c.padding.1 + c.padding.2.2.1
  ∃ sizes boxes w h, List.Forall₂ (ItemSize P.text s.layer.size.dpi) c.items sizes ∧
    ((c.flow = false ∧ Stacked c.rowPadding sizes boxes w h) ∨
     (c.flow = true ∧ Flowing c.rowPadding c.columnPadding (parent.w - padX) sizes boxes w h)) ∧
    let frame := placed c.horiz c.vert parent (w + padX) (h + padY)
    let content := inset frame c.padding.1 c.padding.2.1 c.padding.2.2.1 c.padding.2.2.2
    InOrder ((match c.background with | none => [] | some k => [Filled k (area frame)]) ++
      [Border c.borders.1 (at_ frame 0 0) (at_ frame 1 0), Border c.borders.2.1 (at_ frame 1 0) (at_ frame 1 1),
       Border c.borders.2.2.1 (at_ frame 0 1) (at_ frame 1 1), Border c.borders.2.2.2 (at_ frame 0 0) (at_ frame 0 1)] ++
      (c.items.zip boxes).map fun p => ItemPicture P.text s p.1 (onPage content p.2)) shapes

/-! ## Boxes -/

/-- The point is in the box, but not on its edge. -/
def Interior (r : Rect) (q : Vec2) : Prop := r.x < q.x ∧ q.x < r.x + r.w ∧ r.y < q.y ∧ q.y < r.y + r.h

/-- The boxes do not overlap (they may touch each other). -/
def Apart (a b : Rect) : Prop := ∀ q, ¬ (Interior a q ∧ Interior b q)

/-- One box is a part of the other. -/
def PartOf (a b : Rect) : Prop := ∀ q, a.Has q → b.Has q

end
end Clip.LegendSpec
