import Verif.Lemmas.Determined
import Verif.Spec.WholePlot
import Verif.Props.Defaults
set_option linter.unusedSimpArgs false
set_option maxRecDepth 4000
/-!
# The settings of an element are determined by its options

Up to what cannot be seen: the units of the lengths of dashes, and the sizes of elements that have none.
-/
namespace Clip
open Commands Settings Drawing Pictures Options Whole
variable {φ : Type} {P : PlotEnv φ} {E : ReadEnv}

theorem detE_strokeColor (hp : E.palette ≠ []) : DetE (Options.strokeColor E) := by
  rintro args a b b' ⟨v, h, rfl⟩ ⟨v', h', rfl⟩
  rw [det_color hp _ _ _ h h']

theorem detE_strokeWidth : DetE (Options.strokeWidth E) := by
  rintro args a b b' ⟨v, h, rfl⟩ ⟨v', h', rfl⟩
  rw [det_size _ _ _ h h']

theorem detE_border : DetE BorderStyle := by
  rintro args a b b' (⟨h, rfl⟩ | ⟨h, rfl⟩) (⟨h', rfl⟩ | ⟨h', rfl⟩)
  · rfl
  · exact absurd h h'
  · exact absurd h' h
  · rfl

theorem scalesMeans_det {cmds : List Expr} {a b b' : Scales} (h : ScalesMeans P E cmds a b) (h' : ScalesMeans P E cmds a b') :
    b = b' := by
  have e1 := actsD h.x h'.x ⟨detE_limits, detE_minimum, detE_maximum, detE_words, detE_pad⟩ (by simp [scaleX])
  have e2 := actsD h.y h'.y ⟨detE_limits, detE_minimum, detE_maximum, detE_words, detE_pad⟩ (by simp [scaleY])
  cases b; cases b'
  simp only at e1 e2
  rw [e1, e2]

theorem colorsMeans_det {cmds : List Expr} {a b b' : SeriesData} (h : ColorsMeans P E cmds a b)
    (h' : ColorsMeans P E cmds a b') : b.colors = b'.colors ∧ b.colorMap = b'.colorMap :=
  ⟨actsD h.colors h'.colors detE_texts (by simp), lastD h.colorMap h'.colorMap det_some⟩

theorem sizesMeans_det {cmds : List Expr} {a b b' : SeriesData} (h : SizesMeans P E cmds a b)
    (h' : SizesMeans P E cmds a b') : b.sizes = b'.sizes ∧ b.sizeMap = b'.sizeMap :=
  ⟨actsD h.sizes h'.sizes detE_texts (by simp), lastD h.sizeMap h'.sizeMap det_some⟩

theorem strokeActs_det (hp : E.palette ≠ []) {cmds : List Expr} {a b b' : StrokeState}
    (h : Acts [("color", Options.strokeColor E), ("stroke-color", Options.strokeColor E),
      ("stroke-width", Options.strokeWidth E), ("stroke-style", Options.strokeStyle E)] cmds a b)
    (h' : Acts [("color", Options.strokeColor E), ("stroke-color", Options.strokeColor E),
      ("stroke-width", Options.strokeWidth E), ("stroke-style", Options.strokeStyle E)] cmds a b') : Alike b b' :=
  actsR h h' ⟨relE_strokeColor hp, relE_strokeColor hp, relE_strokeWidth, relE_strokeStyle⟩ (by simp)

theorem fillActs_det (hp : E.palette ≠ []) {cmds : List Expr} {a b b' : FillStyle}
    (h : Acts [("fill", Options.fillStyle E), ("color", Options.fillColor E)] cmds a b)
    (h' : Acts [("fill", Options.fillStyle E), ("color", Options.fillColor E)] cmds a b') : b = b' :=
  actsD h h' ⟨detE_fillStyle hp, detE_fillColor hp⟩ (by simp)

theorem fontActs_det {cmds : List Expr} {a b b' : List φ} {n m : String} (hn : n ≠ m)
    (h : Acts [(n, AddFont P), (m, AddFont P)] cmds a b) (h' : Acts [(n, AddFont P), (m, AddFont P)] cmds a b') : b = b' :=
  actsD h h' ⟨detE_font, detE_font⟩ (by simp [hn])

theorem dataActs_det {cmds : List Expr} {a b b' : DataBuffer (Option ℝ)} {n : String}
    (h : Acts [(n, AddData P)] cmds a b) (h' : Acts [(n, AddData P)] cmds a b') : b = b' :=
  actsD h h' detE_data (by simp)

theorem dataActs2_det {cmds : List Expr} {a b b' : DataBuffer (Option ℝ)} {n m : String} (hn : n ≠ m)
    (h : Acts [(n, AddData P), (m, AddData P)] cmds a b) (h' : Acts [(n, AddData P), (m, AddData P)] cmds a b') : b = b' :=
  actsD h h' ⟨detE_data, detE_data⟩ (by simp [hn])

theorem textActs_det {cmds : List Expr} {a b b' : List Str} {n : String} (h : Acts [(n, Texts P)] cmds a b)
    (h' : Acts [(n, Texts P)] cmds a b') : b = b' := actsD h h' detE_texts (by simp)

theorem lengthActs_det {cmds : List Expr} {a b b' : List Measure} {n : String} (h : Acts [(n, AddLengths P)] cmds a b)
    (h' : Acts [(n, AddLengths P)] cmds a b') : b = b' := actsD h h' detE_lengths (by simp)

theorem directions_nodup : (([("horizontal", Direction.horizontal), ("vertical", .vertical)] :
    List (String × Direction)).map (·.1)).Nodup := by simp

theorem linesMeans_det (hp : E.palette ≠ []) {cmds : List Expr} {a b b' : LinesConf φ} (h : LinesMeans P E cmds a b)
    (h' : LinesMeans P E cmds a b') : Alike b.stroke b'.stroke ∧ b' = { b with stroke := b'.stroke } := by
  refine ⟨strokeActs_det hp h.stroke h'.stroke, ?_⟩
  have e1 := dataMeans_det h.data h'.data
  have e2 := scalesMeans_det h.scales h'.scales
  have e3 := lastD h.markerSize h'.markerSize det_size
  have e4 := lastD h.markerShape h'.markerShape det_ok
  have e5 := lastD h.markerColor h'.markerColor (det_color hp)
  have e6 := textActs_det h.labels h'.labels
  have e7 := h.labelFonts.trans h'.labelFonts.symm
  have e8 := lastD h.labelFontSize h'.labelFontSize det_size
  have e9 := lastD h.labelColor h'.labelColor (det_color hp)
  have e10 := lastD h.labelPadding h'.labelPadding det_size
  have e11 := h.loaded.1.trans h'.loaded.1.symm
  have e12 := h.loaded.2.1.trans h'.loaded.2.1.symm
  have e13 := h.loaded.2.2.trans h'.loaded.2.2.symm
  clear h h'
  cases b; cases b'; dsimp only at *; subst_vars; rfl

theorem series_det {b b' : SeriesData} (h : b.colors = b'.colors ∧ b.colorMap = b'.colorMap)
    (h' : b.sizes = b'.sizes ∧ b.sizeMap = b'.sizeMap) : b = b' := by
  cases b; cases b'
  simp only at h h'
  rw [h.1, h.2, h'.1, h'.2]

theorem pointsMeans_det (hp : E.palette ≠ []) {cmds : List Expr} {a b b' : PointsConf φ} (h : PointsMeans P E cmds a b)
    (h' : PointsMeans P E cmds a b') : b = b' := by
  have e1 := dataMeans_det h.data h'.data
  have e2 := scalesMeans_det h.scales h'.scales
  have e3 := series_det (colorsMeans_det h.colors h'.colors) (sizesMeans_det h.sizes h'.sizes)
  have e4 := lastD h.shape h'.shape det_ok
  have e5 := lastD h.shapes h'.shapes det_ok
  have e6 := lastD h.size h'.size det_size
  have e7 := lastD h.color h'.color (det_color hp)
  have e8 := textActs_det h.labels h'.labels
  have e9 := fontActs_det (by simp) h.labelFonts h'.labelFonts
  have e10 := lastD h.labelFontSize h'.labelFontSize det_size
  have e11 := lastD h.labelColor h'.labelColor (det_color hp)
  have e12 := lastD h.labelPadding h'.labelPadding det_size
  have e13 := h.loaded.1.trans h'.loaded.1.symm
  have e14 := h.loaded.2.1.trans h'.loaded.2.1.symm
  have e15 := h.loaded.2.2.1.trans h'.loaded.2.2.1.symm
  have e16 := h.loaded.2.2.2.trans h'.loaded.2.2.2.symm
  clear h h'
  cases b; cases b'; dsimp only at *; subst_vars; rfl

theorem barsMeans_det (hp : E.palette ≠ []) {cmds : List Expr} {a b b' : BarsConf φ} (h : BarsMeans P E cmds a b)
    (h' : BarsMeans P E cmds a b') : Alike b.stroke b'.stroke ∧ b' = { b with stroke := b'.stroke } := by
  refine ⟨strokeActs_det hp h.stroke h'.stroke, ?_⟩
  have e1 := scalesMeans_det h.scales h'.scales
  have e2 := dataActs2_det (by simp) h.x h'.x
  have e3 := dataActs2_det (by simp) h.y h'.y
  have e4 := dataActs_det h.xoffset h'.xoffset
  have e5 := dataActs_det h.yoffset h'.yoffset
  have e6 := lastD h.size h'.size det_size
  have e7 := lengthActs_det h.sizes h'.sizes
  have e8 := lastD h.offset h'.offset det_size
  have e9 := lengthActs_det h.offsets h'.offsets
  have e10 := fillActs_det hp h.fill h'.fill
  have e11 := lastD h.direction h'.direction (det_oneOf directions_nodup)
  have e12 := textActs_det h.labels h'.labels
  have e13 := h.labelFonts.trans h'.labelFonts.symm
  have e14 := lastD h.labelFontSize h'.labelFontSize det_size
  have e15 := lastD h.labelColor h'.labelColor (det_color hp)
  have e16 := lastD h.labelPadding h'.labelPadding det_measure
  clear h h'
  cases b; cases b'; dsimp only at *; subst_vars; rfl

theorem areasMeans_det (hp : E.palette ≠ []) {cmds : List Expr} {a b b' : AreasConf} (h : AreasMeans P E cmds a b)
    (h' : AreasMeans P E cmds a b') : Alike b.strokeHigh b'.strokeHigh ∧ Alike b.strokeLow b'.strokeLow ∧
      b' = { b with strokeHigh := b'.strokeHigh, strokeLow := b'.strokeLow } := by
  refine ⟨actsR h.strokeHigh h'.strokeHigh ⟨relE_strokeColor hp, relE_strokeColor hp, relE_strokeWidth, relE_strokeStyle,
      relE_strokeColor hp, relE_strokeWidth, relE_strokeStyle⟩ (by simp),
    actsR h.strokeLow h'.strokeLow ⟨relE_strokeColor hp, relE_strokeColor hp, relE_strokeWidth, relE_strokeStyle,
      relE_strokeColor hp, relE_strokeWidth, relE_strokeStyle⟩ (by simp), ?_⟩
  have e1 := dataMeans_det h.data h'.data
  have e2 := scalesMeans_det h.scales h'.scales
  have e3 := dataActs_det h.x h'.x
  have e4 := dataActs_det h.y h'.y
  have e5 := dataActs_det h.xoffset h'.xoffset
  have e6 := dataActs_det h.yoffset h'.yoffset
  have e7 := fillActs_det hp h.fill h'.fill
  have e8 := lastD h.direction h'.direction (det_oneOf directions_nodup)
  clear h h'
  cases b; cases b'; dsimp only at *; subst_vars; rfl

theorem errorbarsMeans_det (hp : E.palette ≠ []) {cmds : List Expr} {a b b' : ErrorbarsConf} (h : ErrorbarsMeans P E cmds a b)
    (h' : ErrorbarsMeans P E cmds a b') : (b.series.colors = b'.series.colors ∧ b.series.colorMap = b'.series.colorMap) ∧
      b' = { b with series := b'.series } := by
  refine ⟨colorsMeans_det h.colors h'.colors, ?_⟩
  have e1 := scalesMeans_det h.scales h'.scales
  have e2 := dataActs_det h.x h'.x
  have e3 := dataActs_det h.y h'.y
  have e4 := dataActs_det h.xLow h'.xLow
  have e5 := dataActs_det h.xHigh h'.xHigh
  have e6 := dataActs_det h.yLow h'.yLow
  have e7 := dataActs_det h.yHigh h'.yHigh
  have e8 := lastD h.barWidth h'.barWidth det_size
  have e9 := lastD h.color h'.color (det_color hp)
  have e10 := lastD h.strokeWidth h'.strokeWidth det_size
  have e11 := h.loaded.trans h'.loaded.symm
  clear h h'
  cases b; cases b'; dsimp only at *; subst_vars; rfl

theorem rectanglesMeans_det (hp : E.palette ≠ []) {cmds : List Expr} {a b b' : RectanglesConf}
    (h : RectanglesMeans P E cmds a b) (h' : RectanglesMeans P E cmds a b') :
    (b.series.colors = b'.series.colors ∧ b.series.colorMap = b'.series.colorMap) ∧ b' = { b with series := b'.series } := by
  refine ⟨colorsMeans_det h.colors h'.colors, ?_⟩
  have e1 := dataMeans_det h.data h'.data
  have e2 := scalesMeans_det h.scales h'.scales
  have e3 := dataActs2_det (by simp) h.sizeX h'.sizeX
  have e4 := dataActs2_det (by simp) h.sizeY h'.sizeY
  have e5 := lastD h.sizeXDefault h'.sizeXDefault det_size
  have e6 := lastD h.sizeYDefault h'.sizeYDefault det_size
  have e7 := lastD h.color h'.color (det_color hp)
  have e8 := h.loaded.1.trans h'.loaded.1.symm
  have e9 := h.loaded.2.1.trans h'.loaded.2.1.symm
  have e10 := h.loaded.2.2.trans h'.loaded.2.2.symm
  clear h h'
  cases b; cases b'; dsimp only at *; subst_vars; rfl

theorem vectorsMeans_det (hp : E.palette ≠ []) {cmds : List Expr} {a b b' : VectorsConf} (h : VectorsMeans P E cmds a b)
    (h' : VectorsMeans P E cmds a b') : b = b' := by
  have e1 := dataMeans_det h.data h'.data
  have e2 := scalesMeans_det h.scales h'.scales
  have e3 := series_det (colorsMeans_det h.colors h'.colors) (sizesMeans_det h.sizes h'.sizes)
  have e4 := dataActs_det h.dx h'.dx
  have e5 := dataActs_det h.dy h'.dy
  have e6 := lastD h.size h'.size det_size
  have e7 := lastD h.color h'.color (det_color hp)
  have e8 := h.loaded.1.trans h'.loaded.1.symm
  have e9 := h.loaded.2.1.trans h'.loaded.2.1.symm
  have e10 := h.loaded.2.2.1.trans h'.loaded.2.2.1.symm
  have e11 := h.loaded.2.2.2.trans h'.loaded.2.2.2.symm
  clear h h'
  cases b; cases b'; dsimp only at *; subst_vars; rfl

theorem labelsMeans_det (hp : E.palette ≠ []) {cmds : List Expr} {a b b' : LabelsConf φ} (h : LabelsMeans P E cmds a b)
    (h' : LabelsMeans P E cmds a b') : b = b' := by
  have e1 := dataMeans_det h.data h'.data
  have e2 := scalesMeans_det h.scales h'.scales
  have e8 := textActs_det h.labels h'.labels
  have e9 := fontActs_det (by simp) h.labelFonts h'.labelFonts
  have e10 := lastD h.labelFontSize h'.labelFontSize det_size
  have e11 := lastD h.labelColor h'.labelColor (det_color hp)
  have e12 := lastD h.labelPadding h'.labelPadding det_measure
  have e13 := h.loaded.1.trans h'.loaded.1.symm
  have e14 := h.loaded.2.trans h'.loaded.2.symm
  clear h h'
  cases b; cases b'; dsimp only at *; subst_vars; rfl

theorem polygonsMeans_det (hp : E.palette ≠ []) {cmds : List Expr} {a b b' : PolygonsConf} (h : PolygonsMeans P E cmds a b)
    (h' : PolygonsMeans P E cmds a b') : Alike b.stroke b'.stroke ∧ b' = { b with stroke := b'.stroke } := by
  refine ⟨strokeActs_det hp h.stroke h'.stroke, ?_⟩
  have e1 := actsD h.x h'.x ⟨detE_limits, detE_minimum, detE_maximum, detE_words⟩ (by simp)
  have e2 := actsD h.y h'.y ⟨detE_limits, detE_minimum, detE_maximum, detE_words⟩ (by simp)
  have e3 := actsD h.polys h'.polys detE_polys (by simp)
  have e4 := fillActs_det hp h.fill h'.fill
  have e5 : b.scales = b'.scales := by
    generalize b.scales = sc at e1 e2
    generalize b'.scales = sc' at e1 e2
    cases sc; cases sc'
    dsimp only at e1 e2
    rw [e1, e2]
  clear h h' e1 e2
  cases b; cases b'; dsimp only at *; subst_vars; rfl

theorem gridMeans_det (hp : E.palette ≠ []) {cmds : List Expr} {a b b' : GridConf} (h : GridMeans P E cmds a b)
    (h' : GridMeans P E cmds a b') : Alike b.stroke b'.stroke ∧ b' = { b with stroke := b'.stroke } := by
  refine ⟨strokeActs_det hp h.stroke h'.stroke, ?_⟩
  have e1 := scalesMeans_det h.scales h'.scales
  have e2 := lastD h.layoutX h'.layoutX det_placement
  have e3 := lastD h.layoutY h'.layoutY det_placement
  clear h h'
  cases b; cases b'; dsimp only at *; subst_vars; rfl

theorem backgroundMeans_det (hp : E.palette ≠ []) {cmds : List Expr} {a b b' : BackgroundConf}
    (h : BackgroundMeans E cmds a b) (h' : BackgroundMeans E cmds a b') :
    Alike b.stroke b'.stroke ∧ b' = { b with stroke := b'.stroke } := by
  refine ⟨strokeActs_det hp h.stroke h'.stroke, ?_⟩
  have e1 := fillActs_det hp h.fill h'.fill
  clear h h'
  cases b; cases b'; dsimp only at *; subst_vars; rfl

/-! ## Axes and legends -/

theorem axisMeans_det (hp : E.palette ≠ []) {cmds : List Expr} {a b b' : AxisDef φ} (h : AxisMeans P E cmds a b)
    (h' : AxisMeans P E cmds a b') : b' = { b with enable := b'.enable } := by
  have e1 := actsD h.scale h'.scale ⟨detE_words, detE_limits, detE_minimum, detE_maximum⟩ (by simp)
  have e2 := lastD h.title h'.title (fun _ _ _ h h' => isText_det h h')
  have e3 := lastD h.titleColor h'.titleColor (det_color hp)
  have e4 := lastD h.titleOffset h'.titleOffset det_number
  have e5 := lastD h.titlePadding h'.titlePadding det_measure
  have e6 := fontActs_det (by simp) h.titleFonts h'.titleFonts
  have e7 := lastD h.titleFontSize h'.titleFontSize det_size
  have e8 := lastD h.titleRotate h'.titleRotate det_number
  have e9 := lastD h.tickOffset h'.tickOffset det_number
  have e10 := lastD h.tickLength h'.tickLength det_measure
  have e11 := lastD h.tickPlacement h'.tickPlacement det_placement
  have e12 := lastD h.labelPlacement h'.labelPlacement det_placement
  have e13 := lastD h.labelFormat h'.labelFormat det_some
  have e14 := lastD h.labelAttach h'.labelAttach (det_oneOf (by simp [attachWords]))
  have e15 := lastD h.labelOffset h'.labelOffset det_number
  have e16 := lastD h.labelPadding h'.labelPadding det_measure
  have e17 := lastD h.labelRotate h'.labelRotate det_number
  have e18 := fontActs_det (by simp) h.labelFonts h'.labelFonts
  have e19 := lastD h.labelFontSize h'.labelFontSize det_size
  have e20 := lastD h.labelColor h'.labelColor (det_color hp)
  have e21 := actsD h.border h'.border ⟨detE_strokeWidth, detE_strokeColor hp, detE_border⟩ (by simp)
  have e22 := h.align.trans h'.align.symm
  clear h h'
  cases b; cases b'; dsimp only at *; subst_vars; rfl

theorem det_position (σ : Side) (args : List Expr) (b b' : Bool) (h : IsPosition σ args b) (h' : IsPosition σ args b') :
    b = b' := by
  have := h.2.trans h'.2.symm
  cases b <;> cases b' <;> simp_all

theorem axesMeans_det (hp : E.palette ≠ []) {cmds : List Expr} {a b b' : AxesConf φ} (h : AxesMeans P E cmds a b)
    (h' : AxesMeans P E cmds a b') : b = b' := by
  have e : ∀ σ, sideOf b σ = sideOf b' σ := by
    intro σ
    have e1 := axisMeans_det hp (h.axis σ) (h'.axis σ)
    have e2 := lastD (h.enable σ) (h'.enable σ) (det_position σ)
    rw [e1, ← e2]
  have m : ∀ σ, marginOf b σ = marginOf b' σ := fun σ => lastD (h.margin σ) (h'.margin σ) det_size
  have e1 := e .top
  have e2 := e .right
  have e3 := e .bottom
  have e4 := e .left
  have m1 := m .top
  have m2 := m .right
  have m3 := m .bottom
  have m4 := m .left
  clear h h' e m
  obtain ⟨t, r, bo, l, m, m', m'', m'''⟩ := b
  obtain ⟨t', r', bo', l', n, n', n'', n'''⟩ := b'
  dsimp only [sideOf, marginOf] at *
  subst_vars
  rfl

theorem itemMeans_det (hp : E.palette ≠ []) {cmds : List Expr} {a b b' : LegendItem φ} (h : ItemMeans P E cmds a b)
    (h' : ItemMeans P E cmds a b') : b = b' := by
  have e1 := lastD h.label h'.label (fun _ _ _ h h' => isText_det h h')
  have e2 := lastD h.labelAlign h'.labelAlign (det_oneOf (by simp [sideWords]))
  have e3 := lastD h.labelMargin h'.labelMargin det_size
  have e4 := lastD h.labelColor h'.labelColor (det_color hp)
  have e5 := fontActs_det (by simp) h.labelFonts h'.labelFonts
  have e6 := lastD h.labelFontSize h'.labelFontSize det_size
  have e7 := lastD h.marker h'.marker det_ok
  have e8 := lastD h.markerAlign h'.markerAlign (det_oneOf (by simp [sideWords]))
  have e9 := lastD h.markerMargin h'.markerMargin det_size
  have e10 := lastD h.markerColor h'.markerColor (det_color hp)
  have e11 := lastD h.markerSize h'.markerSize det_size
  clear h h'
  cases b; cases b'; dsimp only at *; subst_vars; rfl

theorem detE_item (hp : E.palette ≠ []) (item : LegendItem φ) :
    DetE (fun args (x y : List (LegendItem φ)) => ∃ i, IsItem P E item args i ∧ y = x ++ [i]) := by
  rintro args a b b' ⟨i, h, rfl⟩ ⟨i', h', rfl⟩
  rw [itemMeans_det hp h.2 h'.2]

theorem det_switch (args : List Expr) (b b' : Bool) (h : IsSwitch args b) (h' : IsSwitch args b') : b = b' := by
  obtain ⟨k, r, rfl, h⟩ := h
  obtain ⟨k', r', e, h'⟩ := h'
  cases e
  have := isWord_inj h h'
  cases b <;> cases b' <;> first | rfl | exact absurd this (by simp)

theorem lastWord_det {words : List String} {args : List Expr} {w w' : String} (h : LastWord words args w)
    (h' : LastWord words args w') : w = w' := by
  obtain ⟨hw, pre, e, post, rfl, he, hpost⟩ := h
  obtain ⟨hw', pre', e', post', e1, he', hpost'⟩ := h'
  rcases List.append_eq_append_iff.1 e1 with ⟨l, h1, h2⟩ | ⟨l, h1, h2⟩
  · cases l with
    | nil =>
      simp only [List.nil_append, List.cons.injEq] at h2
      rw [h2.1] at he
      exact isWord_inj he he'
    | cons x l =>
      simp only [List.cons_append, List.cons.injEq] at h2
      exact absurd he' (hpost e' (by rw [h2.2]; simp) w' hw')
  · cases l with
    | nil =>
      simp only [List.nil_append, List.cons.injEq] at h2
      rw [← h2.1] at he
      exact isWord_inj he he'
    | cons x l =>
      simp only [List.cons_append, List.cons.injEq] at h2
      exact absurd he (hpost' e (by rw [h2.2]; simp) w hw)

theorem lastWord_mem {words : List String} {args : List Expr} {w : String} (h : LastWord words args w) :
    ∃ e ∈ args, IsWord e w := by
  obtain ⟨hw, pre, e, post, rfl, he, hpost⟩ := h
  exact ⟨e, by simp, he⟩

theorem placed_det {α : Type} {lo hi : String} {vl vh vc a b b' : α} {args : List Expr} (hne : lo ≠ hi)
    (h : (LastWord [lo, hi] args lo ∧ b = vl) ∨ (LastWord [lo, hi] args hi ∧ b = vh) ∨
      ((∀ e ∈ args, ¬ IsWord e lo ∧ ¬ IsWord e hi) ∧
        (((∃ e ∈ args, IsWord e "center") ∧ b = vc) ∨ ((∀ e ∈ args, ¬ IsWord e "center") ∧ b = a))))
    (h' : (LastWord [lo, hi] args lo ∧ b' = vl) ∨ (LastWord [lo, hi] args hi ∧ b' = vh) ∨
      ((∀ e ∈ args, ¬ IsWord e lo ∧ ¬ IsWord e hi) ∧
        (((∃ e ∈ args, IsWord e "center") ∧ b' = vc) ∨ ((∀ e ∈ args, ¬ IsWord e "center") ∧ b' = a)))) : b = b' := by
  rcases h with ⟨h, rfl⟩ | ⟨h, rfl⟩ | ⟨h, h2⟩ <;> rcases h' with ⟨h', rfl⟩ | ⟨h', rfl⟩ | ⟨h', h2'⟩
  · rfl
  · exact absurd (lastWord_det h h') hne
  · obtain ⟨e, he, hw⟩ := lastWord_mem h
    exact absurd hw (h' e he).1
  · exact absurd (lastWord_det h' h) hne
  · rfl
  · obtain ⟨e, he, hw⟩ := lastWord_mem h
    exact absurd hw (h' e he).2
  · obtain ⟨e, he, hw⟩ := lastWord_mem h'
    exact absurd hw (h e he).1
  · obtain ⟨e, he, hw⟩ := lastWord_mem h'
    exact absurd hw (h e he).2
  · rcases h2 with ⟨⟨e, he, hw⟩, rfl⟩ | ⟨h2, rfl⟩ <;> rcases h2' with ⟨⟨e', he', hw'⟩, rfl⟩ | ⟨h2', rfl⟩
    · rfl
    · exact absurd hw (h2' e he)
    · exact absurd hw' (h2 e' he')
    · rfl

theorem detE_placeX : DetE PlaceX := fun _ _ _ _ h h' => placed_det (by simp) h.2 h'.2

theorem detE_placeY : DetE PlaceY := fun _ _ _ _ h h' => placed_det (by simp) h.2 h'.2

theorem det_someColor (hp : E.palette ≠ []) (args : List Expr) (b b' : Option Color)
    (h : ∃ k, IsColor E args k ∧ b = some k) (h' : ∃ k, IsColor E args k ∧ b' = some k) : b = b' := by
  obtain ⟨k, h, rfl⟩ := h
  obtain ⟨k', h', rfl⟩ := h'
  rw [det_color hp _ _ _ h h']

theorem borderActs_det (hp : E.palette ≠ []) {side : String} (hs : side ∈ ["top", "right", "bottom", "left"])
    {cmds : List Expr} {a b b' : StrokeState} (h : Acts (borderOf E side) cmds a b) (h' : Acts (borderOf E side) cmds a b') :
    b = b' := by
  refine actsD h h' ⟨detE_border, detE_strokeColor hp, detE_strokeColor hp, detE_strokeWidth, detE_strokeWidth⟩ ?_
  simp only [List.mem_cons, List.not_mem_nil, or_false] at hs
  rcases hs with rfl | rfl | rfl | rfl <;> simp only [borderOf, List.map] <;> decide

theorem legendMeans_det (hp : E.palette ≠ []) {item : LegendItem φ} {cmds : List Expr} {a b b' : LegendConf φ}
    (h : LegendMeans P E item cmds a b) (h' : LegendMeans P E item cmds a b') : b = b' := by
  have e1 := actsD h.horiz h'.horiz detE_placeX (by simp)
  have e2 := actsD h.vert h'.vert detE_placeY (by simp)
  have e3 := lastD h.rowPadding h'.rowPadding det_size
  have e4 := lastD h.columnPadding h'.columnPadding det_size
  have e5 := lastD h.flow h'.flow det_switch
  have e6 := actsD h.items h'.items (detE_item hp item) (by simp)
  have p1 := lastD h.paddingTop h'.paddingTop det_size
  have p2 := lastD h.paddingRight h'.paddingRight det_size
  have p3 := lastD h.paddingBottom h'.paddingBottom det_size
  have p4 := lastD h.paddingLeft h'.paddingLeft det_size
  have m1 := lastD h.marginTop h'.marginTop det_size
  have m2 := lastD h.marginRight h'.marginRight det_size
  have m3 := lastD h.marginBottom h'.marginBottom det_size
  have m4 := lastD h.marginLeft h'.marginLeft det_size
  have b1 := borderActs_det hp (by simp) h.borderTop h'.borderTop
  have b2 := borderActs_det hp (by simp) h.borderRight h'.borderRight
  have b3 := borderActs_det hp (by simp) h.borderBottom h'.borderBottom
  have b4 := borderActs_det hp (by simp) h.borderLeft h'.borderLeft
  have e7 := lastD h.background h'.background (det_someColor hp)
  have hp : b.padding = b'.padding := Prod.ext p1 (Prod.ext p2 (Prod.ext p3 p4))
  have hm : b.margins = b'.margins := Prod.ext m1 (Prod.ext m2 (Prod.ext m3 m4))
  have hb : b.borders = b'.borders := Prod.ext b1 (Prod.ext b2 (Prod.ext b3 b4))
  clear h h' p1 p2 p3 p4 m1 m2 m3 m4 b1 b2 b3 b4
  cases b; cases b'; dsimp only at *; subst_vars; rfl

end Clip
