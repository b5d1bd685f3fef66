import Verif.Model.Scale
import Verif.Model.Data
import Verif.Model.GLayout
/-!
# Model of the plot elements in `src/plot`

Translated coordinates are finite real numbers and drawing is exact; the translation itself (`translatevBuf`) also
delivers NaN (`none`).  `none` as the result of a drawing function is an access outside a vector.  Fill and stroke
styles, which are the same for all shapes of an element, and fonts are left out; colours (type `K`), marker and
arrow functions (type `M`), which can differ from point to point, are kept.  Marker functions are assumed to
return `OK`.
-/
namespace Clip
noncomputable section

inductive PlotErr where
  | notANumber (v : Str)
  | notACategory (v : Str)
  | lengths
  | empty
  deriving DecidableEq

/-- `scale_translate` on a double that may be NaN (scale.cc:153-168). -/
def translateValue (a : Arith) (s : Scale) (v : Option ℝ) : Option ℝ := v.bind (scaleTranslate a s)

/-- scale.cc:237-259 `scale_map_categories` on the texts of the buffer. -/
def mapCategories (s : Scale) : List Str → Outcome PlotErr (List Nat)
  | [] => .ok []
  | v :: vs =>
    match s.categoriesMap v with
    | none => .error (.notACategory v)
    | some i =>
      match mapCategories s vs with
      | .ok is => .ok (i :: is)
      | .error e => .error e
      | .thrown => .thrown
      | .undefined => .undefined

/-- scale.cc:201-216, the test of `scale_translatev_numeric`: the first text that is no number; `none` is an access
outside the buffer. -/
def firstNonNumber (texts : List Str) : List (Bool × Nat) → Option (Option Str)
  | [] => some none
  | (isNum, pos) :: rest =>
    if isNum then firstNonNumber texts rest
    else
      match texts[pos]? with
      | none => none
      | some t => if isNumber t then firstNonNumber texts rest else some (some t)

/-- scale.cc:225-235 `scale_translatev(scale, buffer, values)` with `scale_translatev_categorical` (184-195) and
`scale_translatev_numeric` (197-223).  `toS` prints a number, `parse` is `parse_f64` (`none` is NaN). -/
def translatevBuf (a : Arith) (toS : Option ℝ → Str) (parse : Str → Option ℝ) (s : Scale)
    (b : DataBuffer (Option ℝ)) : Outcome PlotErr (List (Option ℝ)) :=
  match s.kind with
  | .categorical =>
    match databufToText toS b with
    | none => .undefined
    | some ts =>
      match mapCategories s ts with
      | .ok is => .ok (is.map fun i : ℕ => scaleTranslate a s (i : ℝ))
      | .error e => .error e
      | .thrown => .thrown
      | .undefined => .undefined
  | _ =>
    match firstNonNumber b.text b.index with
    | none => .undefined
    | some (some t) => .error (.notANumber t)
    | some none =>
      match databufToNumbers parse b with
      | none => .undefined
      | some vs => .ok (vs.map (translateValue a s))

/-- scale.cc:261-278 `scale_translate_magnitude` (exact arithmetic). -/
def translateMagnitude (a : Arith) (s : Scale) (v : ℝ) : Option ℝ :=
  match s.kind with
  | .categorical => some 1
  | _ => if scaleMax a s - scaleMin a s = 0 then none else some (v / (scaleMax a s - scaleMin a s))

/-- What a plot element draws. -/
inductive PlotOp (M K : Type) where
  | path (p : Path)
  | marker (shape : M) (pos : Vec2) (size : ℝ) (color : K)
  | arrow (shape : M) (a b : Vec2) (size : ℝ) (color : K)
  | text (t : Str) (pos : Vec2) (ax : HAlign) (ay : VAlign)

/-- plotgen.cc:137-152 `plot_get_clip`: margins are top, right, bottom, left. -/
def plotGetClip (layoutStack : List Rect) (layerW layerH : ℝ) (margins : ℝ × ℝ × ℝ × ℝ) : Rect :=
  match layoutStack.getLast? with
  | none => layoutMarginBox ⟨0, 0, layerW, layerH⟩ margins.1 margins.2.1 margins.2.2.1 margins.2.2.2
  | some r => r

/-- The `x.empty() ? dflt : x[i % x.size()]` idiom of points.cc:84-94, bars.cc:102-108, errorbars.cc:131-133,
rectangles.cc:86-96, vectors.cc:89-99. -/
def cycleOr {α : Type} (dflt : α) (l : List α) (i : Nat) : α :=
  if h : l.length = 0 then dflt else l[i % l.length]'(Nat.mod_lt _ (Nat.pos_of_ne_zero h))

variable {M K : Type}

/-- lines.cc:167-177: the path of one series, from index `b` up to `e`. -/
def linesPath (clip : Rect) (xs ys : List ℝ) (b e : Nat) : Option Path :=
  (List.range' b (e - b)).mapM fun i => do
    let x ← xs[i]?
    let y ← ys[i]?
    let sx := clip.x + x * clip.w
    let sy := clip.y + y * clip.h
    return if i = b then .moveTo sx sy else .lineTo sx sy

/-- lines.cc:163-165: begin and end of series `n`. -/
def lineRange (groups : List Nat) (xs ys : List ℝ) (n : Nat) : Nat × Nat :=
  (if n > 0 then groups.getD (n - 1) 0 else 0, groups.getD n (min xs.length ys.length))

/-- lines.cc:40-55, the parts of `PlotLinesConfig` used here. -/
structure LinesConfig (M K : Type) where
  groups : List Nat
  markerSize : ℝ
  markerShape : M
  markerColor : K
  labels : List Str
  labelPadding : ℝ
  labelFontSize : ℝ

/-- lines.cc:144-227 `lines_draw` behind the translation of the data. -/
def linesDraw (clip : Rect) (c : LinesConfig M K) (xs ys : List ℝ) : Option (List (PlotOp M K)) := do
  let lines ← (List.range (c.groups.length + 1)).mapM fun n => do
    let r := lineRange c.groups xs ys n
    let p ← linesPath clip xs ys r.1 r.2
    return PlotOp.path p
  let markers ← if c.markerSize > 0 then
      (List.range xs.length).mapM fun i => do
        let x ← xs[i]?
        let y ← ys[i]?
        return PlotOp.marker c.markerShape ⟨clip.x + x * clip.w, clip.y + y * clip.h⟩ c.markerSize c.markerColor
    else some []
  let labels ← (List.range c.labels.length).mapM fun i => do
    let t ← c.labels[i]?
    let x ← xs[i]?
    let y ← ys[i]?
    let pad := if c.labelPadding ≠ 0 then c.labelPadding else 0.4 * c.labelFontSize
    return PlotOp.text t ⟨clip.x + x * clip.w, clip.y + y * clip.h + c.markerSize + pad⟩ .center .bottom
  return lines ++ markers ++ labels

/-- lines.cc:132-139: the checks at the end of `lines_configure`. -/
def linesCheck (x y : DataBuffer (Option ℝ)) : Outcome PlotErr Unit :=
  if databufLen x ≠ databufLen y then .error .lengths
  else if databufLen x = 0 ∨ databufLen y = 0 then .error .empty
  else .ok ()

/-- points.cc:41-57, the parts of `PlotPointsConfig` used here. -/
structure PointsConfig (M K : Type) where
  color : K
  colors : List K
  size : ℝ
  sizes : List ℝ
  shape : M
  shapes : List M
  labels : List Str
  labelPadding : ℝ
  labelFontSize : ℝ

/-- points.cc:59-128 `points_draw` behind the translation of the data. -/
def pointsDraw (clip : Rect) (c : PointsConfig M K) (xs ys : List ℝ) : Option (List (PlotOp M K)) := do
  let markers ← (List.range xs.length).mapM fun i => do
    let x ← xs[i]?
    let y ← ys[i]?
    return PlotOp.marker (cycleOr c.shape c.shapes i) ⟨clip.x + x * clip.w, clip.y + y * clip.h⟩
      (cycleOr c.size c.sizes i) (cycleOr c.color c.colors i)
  let labels ← (List.range c.labels.length).mapM fun i => do
    let t ← c.labels[i]?
    let x ← xs[i]?
    let y ← ys[i]?
    let pad := cycleOr 0 c.sizes i * 0.5 +
      (if c.labelPadding ≠ 0 then c.labelPadding else c.labelFontSize * 0.2)
    return PlotOp.text t ⟨clip.x + x * clip.w, clip.y + y * clip.h + pad⟩ .center .bottom
  return markers ++ labels

/-- `std::clamp(v, 0.0, 1.0)`. -/
def clamp01 (v : ℝ) : ℝ := if v < 0 then 0 else if 1 < v then 1 else v

/-- bars.cc:41-61, the parts of `PlotBarsConfig` used here; `size` is the default already resolved (95-98, 178-181). -/
structure BarsConfig where
  size : ℝ
  sizes : List ℝ
  offset : ℝ
  offsets : List ℝ
  labels : List Str
  labelPadding : ℝ

/-- bars.cc:171-199 `bars_draw_vertical`, the bars; `zero` is the position of the value 0 on the y scale. -/
def barsVertical (clip : Rect) (c : BarsConfig) (xs ys yoffsets : List ℝ) (zero : ℝ) :
    Option (List (PlotOp M K)) := do
  let y0 := clamp01 zero
  (List.range xs.length).mapM fun i => do
    let x ← xs[i]?
    let y ← ys[i]?
    let base ← if yoffsets.isEmpty then some y0 else yoffsets[i]?
    let sx := clip.x + x * clip.w
    let sy1 := clip.y + base * clip.h
    let sy2 := clip.y + y * clip.h
    let size := cycleOr c.size c.sizes i
    let offset := cycleOr c.offset c.offsets i
    return PlotOp.path [.moveTo (sx + offset - size * 0.5) sy1, .lineTo (sx + offset - size * 0.5) sy2,
      .lineTo (sx + offset + size * 0.5) sy2, .lineTo (sx + offset + size * 0.5) sy1, .close]

/-- bars.cc:88-116 `bars_draw_horizontal`, the bars. -/
def barsHorizontal (clip : Rect) (c : BarsConfig) (xs ys xoffsets : List ℝ) (zero : ℝ) :
    Option (List (PlotOp M K)) := do
  let x0 := clamp01 zero
  (List.range xs.length).mapM fun i => do
    let x ← xs[i]?
    let y ← ys[i]?
    let base ← if xoffsets.isEmpty then some x0 else xoffsets[i]?
    let sy := clip.y + y * clip.h
    let sx1 := clip.x + base * clip.w
    let sx2 := clip.x + x * clip.w
    let size := cycleOr c.size c.sizes i
    let offset := cycleOr c.offset c.offsets i
    return PlotOp.path [.moveTo sx1 (sy + -offset - size * 0.5), .lineTo sx2 (sy + -offset - size * 0.5),
      .lineTo sx2 (sy + -offset + size * 0.5), .lineTo sx1 (sy + -offset + size * 0.5), .close]

/-- bars.cc:201-227 / 118-144, the labels (`vertical` selects the direction). -/
def barsLabels (vertical : Bool) (clip : Rect) (c : BarsConfig) (xs ys : List ℝ) : Option (List (PlotOp M K)) :=
  (List.range c.labels.length).mapM fun i => do
    let t ← c.labels[i]?
    let x ← xs[i]?
    let y ← ys[i]?
    let offset := cycleOr c.offset c.offsets i
    return if vertical then
      PlotOp.text t ⟨clip.x + offset + x * clip.w, clip.y + y * clip.h + c.labelPadding⟩ .center .bottom
    else PlotOp.text t ⟨clip.x + x * clip.w + c.labelPadding, clip.y + -offset + y * clip.h⟩ .left .center

/-- areas.cc:91-102, 163-174: the first loop; `moveTo` for index 0. -/
def areaHigh (clip : Rect) (xs ys : List ℝ) : Option Path :=
  (List.range xs.length).mapM fun i => do
    let x ← xs[i]?
    let y ← ys[i]?
    return if i = 0 then .moveTo (clip.x + x * clip.w) (clip.y + y * clip.h)
      else .lineTo (clip.x + x * clip.w) (clip.y + y * clip.h)

/-- areas.cc:104-115, 176-187: the points of the second loop, backwards; `vertical` selects which coordinate is
replaced by the base line. -/
def areaLow (vertical : Bool) (clip : Rect) (xs ys offsets : List ℝ) (zero : ℝ) : Option (List Vec2) :=
  (List.range xs.length).reverse.mapM fun i => do
    let x ← xs[i]?
    let y ← ys[i]?
    let base ← if offsets.isEmpty then some (clamp01 zero) else offsets[i]?
    return if vertical then ⟨clip.x + x * clip.w, clip.y + base * clip.h⟩
      else ⟨clip.x + base * clip.w, clip.y + y * clip.h⟩

/-- areas.cc:54-196 `areas_draw_horizontal`, `areas_draw_vertical`: the filled shape, the upper and the lower
line. -/
def areasDraw (vertical : Bool) (clip : Rect) (xs ys offsets : List ℝ) (zero : ℝ) :
    Option (List (PlotOp M K)) := do
  let high ← areaHigh clip xs ys
  let low ← areaLow vertical clip xs ys offsets zero
  return [.path (high ++ lineTos low ++ [.close]), .path high, .path (pathAddPolyLine [] low)]

/-- errorbars.cc:53-81 `errorbars_draw_bar`: three lines; `none` if the ends coincide (NaN coordinates). -/
def errorbarBar (barWidth : ℝ) (a b : Vec2) : Option (List Path) := do
  let d ← (b.sub a).normalize
  let o : Vec2 := ⟨d.y, d.x * -1⟩
  let cap (p : Vec2) : Path := pathAddLine [] (p.add (o.scale (barWidth * -0.5))) (p.add (o.scale (barWidth * 0.5)))
  return [pathAddLine [] a b, cap a, cap b]

/-- errorbars.cc:125-131: the ends of the `i`-th vertical errorbar. -/
def errorbarVertical (clip : Rect) (x ylow yhigh : ℝ) : Vec2 × Vec2 :=
  (⟨clip.x + x * clip.w, clip.y + ylow * clip.h⟩, ⟨clip.x + x * clip.w, clip.y + yhigh * clip.h⟩)

/-- errorbars.cc:143-149: the ends of the `i`-th horizontal errorbar; line 149 uses `clip.x` for the y
coordinate. -/
def errorbarHorizontal (clip : Rect) (y xlow xhigh : ℝ) : Vec2 × Vec2 :=
  (⟨clip.x + xlow * clip.w, clip.y + y * clip.h⟩, ⟨clip.x + xhigh * clip.w, clip.x + y * clip.h⟩)

/-- errorbars.cc:120-158, the two loops of `errorbars_draw`: the ends of all errorbars. -/
def errorbarsDraw (clip : Rect) (x xlow xhigh y ylow yhigh : List ℝ) : List (Vec2 × Vec2) :=
  (List.zipWith3 (errorbarVertical clip) x ylow yhigh) ++ (List.zipWith3 (errorbarHorizontal clip) y xlow xhigh)

/-- rectangles.cc:41-52, the parts of `PlotRectanglesConfig` used here. -/
structure RectanglesConfig where
  sizeX : ℝ
  sizeY : ℝ

/-- rectangles.cc:83-105 `rectangles_draw`, the loop; `sizesX`, `sizesY` are translated magnitudes. -/
def rectanglesDraw (clip : Rect) (c : RectanglesConfig) (xs ys sizesX sizesY : List ℝ) :
    Option (List (PlotOp M K)) :=
  (List.range xs.length).mapM fun i => do
    let x ← xs[i]?
    let y ← ys[i]?
    let w := cycleOr c.sizeX (sizesX.map (· * clip.w)) i
    let h := cycleOr c.sizeY (sizesY.map (· * clip.h)) i
    return PlotOp.path (pathAddRectCentered [] ⟨clip.x + clip.w * x, clip.y + clip.h * y⟩ ⟨w, h⟩)

/-- vectors.cc:82-104 `vectors_draw`, the loop. -/
def vectorsDraw (clip : Rect) (shape : M) (shapes : List M) (size : ℝ) (sizes : List ℝ) (color : K)
    (colors : List K) (xs ys dx dy : List ℝ) : Option (List (PlotOp M K)) :=
  (List.range xs.length).mapM fun i => do
    let x ← xs[i]?
    let y ← ys[i]?
    let u ← dx[i]?
    let v ← dy[i]?
    let sx := clip.x + clip.w * x
    let sy := clip.y + clip.h * y
    return PlotOp.arrow (cycleOr shape shapes i) ⟨sx, sy⟩ ⟨sx + u * clip.w, sy + v * clip.h⟩
      (cycleOr size sizes i) (cycleOr color colors i)

/-- polygons.cc:107-120: the transformation of a polygon (only the boundary) and its path (draw_cmd.cc:84-94). -/
def polygonPath (clip : Rect) (posX posY : ℝ → ℝ) (p : Poly2) : Path :=
  pathFromPoly2
    { p with boundary := p.boundary.map fun v =>
        ⟨clamp01 (posX v.x) * clip.w + clip.x, clamp01 (posY v.y) * clip.h + clip.y⟩ }

/-- grid.cc:59-77: the grid lines of `plot_grid`. -/
def gridDraw (b : Rect) (ticksX ticksY : List ℝ) : List (PlotOp M K) :=
  (ticksX.map fun t => .path (pathAddLine [] ⟨b.x + b.w * t, b.y⟩ ⟨b.x + b.w * t, b.y + b.h⟩)) ++
  (ticksY.map fun t => .path (pathAddLine [] ⟨b.x, b.y + b.h * (1 - t)⟩ ⟨b.x + b.w, b.y + b.h * (1 - t)⟩))

/-- labels.cc:65-86 `labels_draw`, the loop; `pad` is the resolved padding. -/
def labelsDraw (clip : Rect) (pad : ℝ) (labels : List Str) (xs ys : List ℝ) : Option (List (PlotOp M K)) :=
  (List.range labels.length).mapM fun i => do
    let t ← labels[i]?
    let x ← xs[i]?
    let y ← ys[i]?
    return PlotOp.text t ⟨clip.x + x * clip.w, clip.y + (1 - y) * clip.h - pad⟩ .center .bottom

/-- arrows.cc:23-51 `arrow_draw_default`: the shaft and the head; `none` if the ends coincide (NaN). -/
def arrowDefault (a b : Vec2) (size : ℝ) : Option (List Path) := do
  let d ← (b.sub a).normalize
  let o : Vec2 := ⟨d.y, d.x * -1⟩
  let p := b.add (o.scale (size * 2))
  let q := b.sub (o.scale (size * 2))
  let t := b.add (d.scale (size * 4))
  return [pathAddLine [] a b, [.moveTo p.x p.y, .lineTo q.x q.y, .lineTo t.x t.y, .close]]

end
end Clip
