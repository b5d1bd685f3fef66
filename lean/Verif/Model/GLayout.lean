import Verif.Model.Path
/-!
# Model of `src/graphics/layout.cc` (exact arithmetic)
-/
namespace Clip
noncomputable section

/-- layout.h:20-22 `enum class HAlign`. -/
inductive HAlign where | left | center | right
  deriving DecidableEq

/-- layout.h:24-26 `enum class VAlign`. -/
inductive VAlign where | top | center | bottom
  deriving DecidableEq

/-- layout.cc:21-33 `layout_margin_box`. -/
def layoutMarginBox (p : Rect) (top right bottom left : ℝ) : Rect where
  x := p.x + left
  y := p.y + bottom
  w := max (p.w - (left + right)) 0
  h := max (p.h - (top + bottom)) 0

/-- layout.cc:35-42 `layout_align(bbox, target)`. -/
def layoutCenter (b : Rect) (t : Vec2) : Vec2 := ⟨t.x - (b.x + b.w / 2), t.y - (b.y + b.h / 2)⟩

/-- layout.cc:44-72 `layout_align(bbox, target, align_x, align_y)`. -/
def layoutAlign (b : Rect) (t : Vec2) (ax : HAlign) (ay : VAlign) : Vec2 :=
  let tx := match ax with
    | .left => t.x + b.w / 2
    | .right => t.x - b.w / 2
    | .center => t.x
  let ty := match ay with
    | .top => t.y - b.h / 2
    | .bottom => t.y + b.h / 2
    | .center => t.y
  layoutCenter b ⟨tx, ty⟩

/-- layout.cc:74-106 `box_rotate_bounds`. -/
def boxRotateBounds (b : Rect) (angleDeg : ℝ) : Rect :=
  let i := Real.sin (-angleDeg * Real.pi / 180)
  let q := Real.cos (-angleDeg * Real.pi / 180)
  let x1 := q * (b.w * 0.5) - i * (b.h * 0.5)
  let x2 := q * (b.w * 0.5) - i * (b.h * -0.5)
  let x3 := q * (b.w * -0.5) - i * (b.h * -0.5)
  let x4 := q * (b.w * -0.5) - i * (b.h * 0.5)
  let y1 := q * (b.h * 0.5) + i * (b.w * 0.5)
  let y2 := q * (b.h * -0.5) + i * (b.w * 0.5)
  let y3 := q * (b.h * -0.5) + i * (b.w * -0.5)
  let y4 := q * (b.h * 0.5) + i * (b.w * -0.5)
  let rw := max (max (max x1 x2) x3) x4 - min (min (min x1 x2) x3) x4
  let rh := max (max (max y1 y2) y3) y4 - min (min (min y1 y2) y3) y4
  ⟨(b.x + b.w * 0.5) - rw * 0.5, (b.y + b.h * 0.5) - rh * 0.5, rw, rh⟩

end
end Clip
