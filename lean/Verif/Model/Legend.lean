import Verif.Model.Axis
/-!
# Model of `src/figure/legend.cc` and `src/figure/legend_item.cc` (exact arithmetic)
-/
namespace Clip
noncomputable section

variable {φ : Type}

/-- legend_item.h:22-34 `struct LegendItem`. -/
structure LegendItem (φ : Type) where
  label : Str := []
  labelAlign : HAlign := .left
  labelMargin : ℝ
  labelColor : Color := .black
  labelFonts : List φ
  labelFontSize : ℝ
  marker : Marker := .disk
  markerAlign : HAlign := .left
  markerMargin : ℝ
  markerColor : Color := .black
  markerSize : ℝ

/-- legend_item.cc:150-160: the defaults. -/
def legendItemDefault (s : PlotState φ) : LegendItem φ where
  labelMargin := unitFromEm 1.1 s.fontSize
  labelFonts := s.layer.fonts
  labelFontSize := s.fontSize
  markerSize := s.fontSize * 0.75
  markerMargin := unitFromEm 0.2 (s.fontSize * 0.75)

/-- legend_item.cc:166-186: `label-align`, `marker-align`. -/
def readSide (args : List Expr) : Except Fail HAlign :=
  readEnum (fun w => if w = "left".toList then some .left else if w = "right".toList then some .right else none) args

/-- legend_item.cc:163-192, the options of an item. -/
def legendItemOpts (P : PlotEnv φ) (E : ReadEnv) : List (String × Handler (LegendItem φ) Fail) := [
  ("font", field (fun args _ => readFont P.text args) fun c f => { c with labelFonts := f :: c.labelFonts }),
  ("label", field (fun args _ => readString args) fun c v => { c with label := v }),
  ("label-align", field (fun args _ => readSide args) fun c v => { c with labelAlign := v }),
  ("label-margin", onPart (·.labelMargin) (fun c v => { c with labelMargin := v }) (sizeVar E)),
  ("label-color", onPart (·.labelColor) (fun c v => { c with labelColor := v }) (colorVar E)),
  ("label-font", field (fun args _ => readFont P.text args) fun c f => { c with labelFonts := f :: c.labelFonts }),
  ("label-font-size", onPart (·.labelFontSize) (fun c v => { c with labelFontSize := v }) (sizeVar E)),
  ("marker-shape", field (fun args _ => readMarker E args) fun c v => { c with marker := v }),
  ("marker-align", field (fun args _ => readSide args) fun c v => { c with markerAlign := v }),
  ("marker-margin", onPart (·.markerMargin) (fun c v => { c with markerMargin := v }) (sizeVar E)),
  ("marker-color", onPart (·.markerColor) (fun c v => { c with markerColor := v }) (colorVar E)),
  ("marker-size", onPart (·.markerSize) (fun c v => { c with markerSize := v }) (sizeVar E)),
  ("color", onPart (·.markerColor) (fun c v => { c with markerColor := v }) (colorVar E))]

/-- legend_item.cc:143-200 `legend_item_configure`. -/
def legendItemConfigure (P : PlotEnv φ) (s : PlotState φ) (args : List Expr) : Except Fail (LegendItem φ) :=
  match walkRead (optTable (legendItemOpts P (s.env P))) args (legendItemDefault s) with
  | (_, some f) => .error f
  | (c, none) => .ok c

/-- legend_item.cc:32-61 `legend_item_calculate_size`: width and height; the marker is not looked at. -/
def legendItemSize (P : PlotEnv φ) (dpi : ℝ) (i : LegendItem φ) : Except Fail (ℝ × ℝ) :=
  match measureLabel P.text dpi i.labelFonts i.labelFontSize i.label with
  | .error f => .error f
  | .ok b => .ok (b.w + i.labelMargin, b.h)

/-- legend_item.cc:78-93, 107-118: the point at the margin `m` of a side. -/
def itemPoint (b : Rect) (side : HAlign) (m : ℝ) : Vec2 :=
  match side with
  | .left => ⟨b.x + m, b.y + b.h * 0.5⟩
  | .right => ⟨b.x + b.w - m, b.y + b.h * 0.5⟩
  | .center => ⟨0, 0⟩

/-- legend_item.cc:63-100 `draw_label`. -/
def legendLabel (P : PlotEnv φ) (i : LegendItem φ) (b : Rect) (L : Layer φ) : Layer φ × Option Fail :=
  drawTextRotated P.text L i.label (itemPoint b i.labelAlign i.labelMargin) i.labelAlign .center 0 i.labelFonts
    i.labelFontSize i.labelColor

/-- legend_item.cc:102-127 `draw_marker`. -/
def legendMarker (P : PlotEnv φ) (i : LegendItem φ) (b : Rect) (L : Layer φ) : Layer φ × Option Fail :=
  renderMarker P i.marker (itemPoint b i.markerAlign i.markerMargin) i.markerSize i.markerColor L

/-- legend_item.cc:129-143 `legend_item_draw`. -/
def legendItemDraw (P : PlotEnv φ) (i : LegendItem φ) (b : Rect) (L : Layer φ) : Layer φ × Option Fail :=
  tryChain [legendLabel P i b, legendMarker P i b] L

/-- legend.cc:35-47 `struct LegendConfig`; four values are top, right, bottom, left. -/
structure LegendConf (φ : Type) where
  horiz : HAlign := .left
  vert : VAlign := .top
  rowPadding : ℝ
  columnPadding : ℝ
  flow : Bool := false
  margins : ℝ × ℝ × ℝ × ℝ
  padding : ℝ × ℝ × ℝ × ℝ
  borders : StrokeState × StrokeState × StrokeState × StrokeState
  background : Option Color := none
  items : List (LegendItem φ) := []

/-- legend.cc:54-99 `legend_layout_item_rows`, of the sizes of the items: the boxes, and the width and height used so
far (`w`, `h`). -/
def rowsLayout (pad : ℝ) : List (ℝ × ℝ) → ℝ → ℝ → List Rect × ℝ × ℝ
  | [], w, h => ([], w, h)
  | (ew, eh) :: es, w, h =>
    let y := if 0 < h then h + pad else h
    let r := rowsLayout pad es (max w ew) (y + eh)
    (⟨0, y, ew, eh⟩ :: r.1, r.2)

/-- legend.cc:101-157 `legend_layout_item_flow`: the state of the loop. -/
structure FlowState where
  /-- boxes of the rows before -/
  done : List Rect := []
  /-- boxes of the row being filled -/
  row : List Rect := []
  width : ℝ := 0
  height : ℝ := 0
  rowWidth : ℝ := 0
  rowHeight : ℝ := 0

/-- legend.cc:116-152: one item of the flow; all boxes of the row get the height of the row. -/
def flowStep (rowPad colPad maxWidth : ℝ) (f : FlowState) (e : ℝ × ℝ) : FlowState :=
  let rw := if 0 < f.rowWidth then f.rowWidth + colPad else f.rowWidth
  let f := if rw + e.1 > maxWidth then
      { f with done := f.done ++ f.row, row := [], height := f.height + (f.rowHeight + rowPad), rowWidth := 0, rowHeight := 0 }
    else { f with rowWidth := rw }
  let rh := max f.rowHeight e.2
  { f with
    rowWidth := f.rowWidth + e.1
    rowHeight := rh
    width := max f.width (f.rowWidth + e.1)
    row := (f.row ++ [(⟨f.rowWidth, f.height, e.1, e.2⟩ : Rect)]).map fun b : Rect => { b with h := rh } }

/-- legend.cc:101-157 `legend_layout_item_flow`: boxes, width, height. -/
def flowLayout (rowPad colPad maxWidth : ℝ) (es : List (ℝ × ℝ)) : List Rect × ℝ × ℝ :=
  let f := es.foldl (flowStep rowPad colPad maxWidth) {}
  (f.done ++ f.row, f.width, f.height + f.rowHeight)

/-- The sizes of all items, in order. -/
def legendSizes (P : PlotEnv φ) (dpi : ℝ) : List (LegendItem φ) → Except Fail (List (ℝ × ℝ))
  | [] => .ok []
  | i :: is => match legendItemSize P dpi i with
    | .error f => .error f
    | .ok e => match legendSizes P dpi is with
      | .error f => .error f
      | .ok es => .ok (e :: es)

/-- legend.cc:159-214 `legend_layout`: boxes, width, height.  The maximal height is computed from the width, but it is
not used. -/
def legendLayout (c : LegendConf φ) (maxWidth : ℝ) (es : List (ℝ × ℝ)) : List Rect × ℝ × ℝ :=
  let r := if c.flow then flowLayout c.rowPadding c.columnPadding (maxWidth - (c.padding.2.1 + c.padding.2.2.2)) es
    else rowsLayout c.rowPadding es 0 0
  (r.1, r.2.1 + c.padding.2.1 + c.padding.2.2.2, r.2.2 + c.padding.1 + c.padding.2.2.1)

/-- legend.cc:305-341: the box of the legend inside its parent. -/
def legendBox (c : LegendConf φ) (parent : Rect) (ew eh : ℝ) : Rect :=
  let w := min ew parent.w
  let h := min eh parent.h
  { w := w
    h := h
    x := match c.horiz with
      | .left => parent.x
      | .center => parent.x + parent.w * 0.5 - w * 0.5
      | .right => parent.x + parent.w - w
    y := match c.vert with
      | .top => parent.y + parent.h - h
      | .center => parent.y + parent.h * 0.5 - h * 0.5
      | .bottom => parent.y }

/-- One border of legend.cc:216-277; only width and colour are used. -/
def legendBorder (k : StrokeState) (p q : Vec2) (L : Layer φ) : Layer φ :=
  if 0 < k.width then
    renderPath { StrokeState.default with width := k.width, color := k.color } .default false (pathAddLine [] p q) L
  else L

/-- legend.cc:216-277 `plot_legend_borders`: the first border ("top") is drawn along the lower edge (`bbox.y`), the third
along the upper one. -/
def legendBorders (bs : StrokeState × StrokeState × StrokeState × StrokeState) (b : Rect) (L : Layer φ) : Layer φ :=
  legendBorder bs.2.2.2 ⟨b.x, b.y⟩ ⟨b.x, b.y + b.h⟩
    (legendBorder bs.2.2.1 ⟨b.x, b.y + b.h⟩ ⟨b.x + b.w, b.y + b.h⟩
      (legendBorder bs.2.1 ⟨b.x + b.w, b.y⟩ ⟨b.x + b.w, b.y + b.h⟩
        (legendBorder bs.1 ⟨b.x, b.y⟩ ⟨b.x + b.w, b.y⟩ L)))

/-- legend.cc:285-289: the box of an item on the page. -/
def itemBox (content b : Rect) : Rect := ⟨content.x + b.x, content.y + content.h - b.y - b.h, b.w, b.h⟩

/-- legend.cc:279-297 `plot_legend_items`. -/
def legendItems (P : PlotEnv φ) (content : Rect) (items : List (LegendItem φ)) (boxes : List Rect) (L : Layer φ) :
    Layer φ × Option Fail :=
  tryChain ((items.zip boxes).map fun p => legendItemDraw P p.1 (itemBox content p.2)) L

/-- legend.cc:343-348: the box of the items. -/
def legendContent (c : LegendConf φ) (border : Rect) : Rect :=
  layoutMarginBox border c.padding.1 c.padding.2.1 c.padding.2.2.1 c.padding.2.2.2

/-- legend.cc:304-311: the box the legend is placed in. -/
def legendParent (c : LegendConf φ) (clip : Rect) : Rect :=
  layoutMarginBox clip c.margins.1 c.margins.2.1 c.margins.2.2.1 c.margins.2.2.2

/-- legend.cc:299-378 `plot_legend(ctx, plot, config)`. -/
def legendRender (P : PlotEnv φ) (c : LegendConf φ) (s : PlotState φ) : PlotState φ × Option Fail :=
  match legendSizes P s.layer.size.dpi c.items with
  | .error f => (s, some f)
  | .ok es =>
    let r := legendLayout c (legendParent c s.clip).w es
    let border := legendBox c (legendParent c s.clip) r.2.1 r.2.2
    let L1 := match c.background with
      | some k => renderPath .default ⟨some k, none⟩ false (pathAddRect [] border) s.layer
      | none => s.layer
    drawOn s (legendItems P (legendContent c border) c.items r.1 (legendBorders c.borders border L1))

/-- legend.cc:381-430 `legend_configure_position`; `hs`, `vs`: whether a word for the axis was seen. -/
def legendPosition (hs vs : Bool) : Handler (LegendConf φ) Fail
  | [], c => (c, none)
  | e :: es, c =>
    if isWord [e] "top".toList then legendPosition hs true es { c with vert := .top }
    else if isWord [e] "bottom".toList then legendPosition hs true es { c with vert := .bottom }
    else if isWord [e] "left".toList then legendPosition true vs es { c with horiz := .left }
    else if isWord [e] "right".toList then legendPosition true vs es { c with horiz := .right }
    else if isWord [e] "center".toList then
      legendPosition hs vs es { c with
        horiz := if hs then c.horiz else .center
        vert := if vs then c.vert else .center }
    else (c, some (.error .invalidValue))

/-- The four members of a tuple as parts. -/
def at1 {α : Type} (h : Handler α Fail) : Handler (α × α × α × α) Fail := onPart (·.1) (fun t v => (v, t.2)) h
def at2 {α : Type} (h : Handler α Fail) : Handler (α × α × α × α) Fail :=
  onPart (·.2.1) (fun t v => (t.1, v, t.2.2)) h
def at3 {α : Type} (h : Handler α Fail) : Handler (α × α × α × α) Fail :=
  onPart (·.2.2.1) (fun t v => (t.1, t.2.1, v, t.2.2.2)) h
def at4 {α : Type} (h : Handler α Fail) : Handler (α × α × α × α) Fail :=
  onPart (·.2.2.2) (fun t v => (t.1, t.2.1, t.2.2.1, v)) h
def atAll {α : Type} (h : Handler α Fail) : Handler (α × α × α × α) Fail := callAll [at1 h, at2 h, at3 h, at4 h]

def onPadding (h : Handler (ℝ × ℝ × ℝ × ℝ) Fail) : Handler (LegendConf φ) Fail :=
  onPart (·.padding) (fun c v => { c with padding := v }) h
def onMargins (h : Handler (ℝ × ℝ × ℝ × ℝ) Fail) : Handler (LegendConf φ) Fail :=
  onPart (·.margins) (fun c v => { c with margins := v }) h
def onBorders (h : Handler (StrokeState × StrokeState × StrokeState × StrokeState) Fail) : Handler (LegendConf φ) Fail :=
  onPart (·.borders) (fun c v => { c with borders := v }) h

/-- legend.cc:432-443 `configure_item`. -/
def legendItemAdd (P : PlotEnv φ) (s : PlotState φ) : Handler (LegendConf φ) Fail :=
  field (fun args _ => legendItemConfigure P s args) fun c i => { c with items := c.items ++ [i] }

/-- legend.cc:472-551, the options of `legend`. -/
def legendOpts (P : PlotEnv φ) (s : PlotState φ) : List (String × Handler (LegendConf φ) Fail) := [
  ("position", legendPosition false false),
  ("item-row-padding", onPart (·.rowPadding) (fun c v => { c with rowPadding := v }) (sizeVar (s.env P))),
  ("item-column-padding", onPart (·.columnPadding) (fun c v => { c with columnPadding := v }) (sizeVar (s.env P))),
  ("item-flow", field (fun args _ => readSwitch args) fun c v => { c with flow := v }),
  ("item", legendItemAdd P s),
  ("padding", onPadding (atAll (sizeVar (s.env P)))),
  ("padding-top", onPadding (at1 (sizeVar (s.env P)))),
  ("padding-right", onPadding (at2 (sizeVar (s.env P)))),
  ("padding-bottom", onPadding (at3 (sizeVar (s.env P)))),
  ("padding-left", onPadding (at4 (sizeVar (s.env P)))),
  ("margin", onMargins (atAll (sizeVar (s.env P)))),
  ("margin-top", onMargins (at1 (sizeVar (s.env P)))),
  ("margin-right", onMargins (at2 (sizeVar (s.env P)))),
  ("margin-bottom", onMargins (at3 (sizeVar (s.env P)))),
  ("margin-left", onMargins (at4 (sizeVar (s.env P)))),
  ("border", onBorders (atAll borderStyle)),
  ("border-color", onBorders (atAll (strokeColor (s.env P)))),
  ("border-top-color", onBorders (at1 (strokeColor (s.env P)))),
  ("border-right-color", onBorders (at2 (strokeColor (s.env P)))),
  ("border-bottom-color", onBorders (at3 (strokeColor (s.env P)))),
  ("border-left-color", onBorders (at4 (strokeColor (s.env P)))),
  ("border-width", onBorders (atAll (strokeWidth (s.env P)))),
  ("border-top-width", onBorders (at1 (strokeWidth (s.env P)))),
  ("border-right-width", onBorders (at2 (strokeWidth (s.env P)))),
  ("border-bottom-width", onBorders (at3 (strokeWidth (s.env P)))),
  ("border-left-width", onBorders (at4 (strokeWidth (s.env P)))),
  ("background", field (fun args _ => readColor (s.env P) .black args) fun c v => { c with background := some v })]

/-- legend.cc:450-470: the defaults. -/
def legendDefault (s : PlotState φ) : LegendConf φ where
  rowPadding := unitFromEm 0.3 s.fontSize
  columnPadding := unitFromEm 1.4 s.fontSize
  margins := (unitFromEm 0.6 s.fontSize, unitFromEm 0.6 s.fontSize, unitFromEm 0.6 s.fontSize, unitFromEm 0.6 s.fontSize)
  padding := (unitFromEm 0.6 s.fontSize, unitFromEm 1 s.fontSize, unitFromEm 0.6 s.fontSize, unitFromEm 1 s.fontSize)
  borders := (.default, .default, .default, .default)

/-- legend.cc:445-556: the configuration. -/
def legendConfigure (P : PlotEnv φ) (s : PlotState φ) (args : List Expr) : Except Fail (LegendConf φ) :=
  match walkRead (optTable (legendOpts P s)) args (legendDefault s) with
  | (_, some f) => .error f
  | (c, none) => .ok c

/-- legend.cc:445-560 `plot_legend(ctx, plot, expr)`. -/
def legendCmd (P : PlotEnv φ) : Handler (PlotState φ) Fail := withConfig (legendConfigure P) (legendRender P)

end
end Clip
