import Verif.Lemmas.Settled
import Verif.Props.LegendPicture
import Verif.Props.AxisDraw
set_option linter.unusedSimpArgs false
/-!
# C96: from the options and data of an element to its picture
-/
namespace Clip
open Commands Settings Drawing Pictures PlotSpec AxisSpec Elements Options LegendSpec Whole
variable {φ : Type}

/-! ## Settings -/

theorem settled_of_ok {α : Type} {run : Except Fail α} {takes : Takes} {means : List Expr → α → α → Prop}
    {loads : α → α → Prop} {start : α} {args : List Expr}
    (h : Configured run (Acceptable takes args) (means args start) loads) {c : α} (hc : run = .ok c) :
    Settled takes means loads start args c := by
  by_cases hok : Acceptable takes args
  · obtain ⟨o, h1, h2⟩ := h.2 hok
    exact ⟨hok, o, h1, (h2 c).1 hc⟩
  · exact absurd hc (h.1 hok c)

/-- What was read agrees with `c` up to `R`. -/
theorem ok_of_settled {α : Type} {run : Except Fail α} {takes : Takes} {means : List Expr → α → α → Prop}
    {loads : α → α → Prop} {start : α} {args : List Expr}
    (h : Configured run (Acceptable takes args) (means args start) loads) {Q R : α → α → Prop}
    (hQ : ∀ {o o'}, means args start o → means args start o' → Q o o')
    (hR : ∀ {o o' c}, Q o o' → loads o c → ∃ c', loads o' c' ∧ R c c') {c : α}
    (hc : Settled takes means loads start args c) : ∃ c', run = .ok c' ∧ R c c' := by
  obtain ⟨hok, o, h1, h2⟩ := hc
  obtain ⟨o', h3, h4⟩ := h.2 hok
  obtain ⟨c', h5, h6⟩ := hR (hQ h1 h3) h2
  exact ⟨c', (h4 c').2 h5, h6⟩

/-- When the settings are determined. -/
theorem ok_iff_settled {α : Type} {run : Except Fail α} {takes : Takes} {means : List Expr → α → α → Prop}
    {loads : α → α → Prop} {start : α} {args : List Expr}
    (h : Configured run (Acceptable takes args) (means args start) loads)
    (hQ : ∀ {o o'}, means args start o → means args start o' → o = o') (c : α) :
    run = .ok c ↔ Settled takes means loads start args c := by
  refine ⟨settled_of_ok h, fun hc => ?_⟩
  obtain ⟨c', h1, rfl⟩ := ok_of_settled (Q := Eq) (R := Eq) h hQ (by rintro o o' c rfl hl; exact ⟨c, hl, rfl⟩) hc
  exact h1

/-! ## Strokes -/

theorem styled_alike {k k' : StrokeState} (h : Alike k k') (f : FillStyle) : styled k f = styled k' f := by
  rw [alike_iff] at h
  obtain ⟨h1, h2, h3, h4, h5⟩ := h
  unfold styled
  rw [h1, h2, h5, h3]
  congr 1
  cases hd : k'.dashed with
  | false => simp
  | true => rw [h4 (h3.trans hd)]

theorem shape_alike {k k' : StrokeState} (h : Alike k k') : Shape k = Shape k' := by
  funext f p shapes
  unfold Shape
  rw [styled_alike h]

/-! ## Elements -/

section
theorem formatter_eq (P : PlotEnv φ) (a : AxisDef φ) : a.formatter P = labelText P a := by
  unfold AxisDef.formatter labelText FormatSpec.formatter
  cases a.labelFormat with
  | some f => rfl
  | none => cases hk : a.scale.kind <;> simp [formatNoop, FormatSpec.label] <;> rfl

variable (P : PlotEnv φ) (hT : LevelsOfChars P.text) (s s' : PlotState φ) (hp : s.layer.palette ≠ []) (args : List Expr)
include hp

theorem settledPoints (c : PointsConf φ) : pointsConfigure P s args = .ok c ↔ SettledPoints P s args c :=
  ok_iff_settled (C93_points P s hp args) (pointsMeans_det hp) c

theorem settledVectors (c : VectorsConf) : vectorsConfigure P s args = .ok c ↔ SettledVectors P s args c :=
  ok_iff_settled (C93_vectors P s hp args) (vectorsMeans_det hp) c

theorem settledLabels (c : LabelsConf φ) : labelsConfigure P s args = .ok c ↔ SettledLabels P s args c :=
  ok_iff_settled (C93_labels P s hp args) (labelsMeans_det hp) c

theorem settledLegend (c : LegendConf φ) : legendConfigure P s args = .ok c ↔ SettledLegend P s args c :=
  ok_iff_settled (C93_legend P s hp args) (legendMeans_det hp) c

theorem settledAxes (c : AxesConf φ) : axesConfigure P s args = .ok c ↔ SettledAxes P s args c := by
  have h := C93_axes P s hp args
  constructor
  · intro hc
    by_cases hok : ∀ c ∈ args, axesTakes P (s.env P) c
    · obtain ⟨o, h1, h2⟩ := h.2 hok
      cases (h2 c).1 hc
      exact ⟨hok, h1⟩
    · exact absurd hc (h.1 hok c)
  · rintro ⟨hok, hm⟩
    obtain ⟨o, h1, h2⟩ := h.2 hok
    exact (h2 c).2 (axesMeans_det hp hm h1)

/-- What is read is `c` with another description of the same stroke. -/
theorem settledLines {c : LinesConf φ} (h : SettledLines P s args c) :
    ∃ k, linesConfigure P s args = .ok { c with stroke := k } ∧ Alike c.stroke k := by
  obtain ⟨c', h1, k, h2, rfl⟩ := ok_of_settled (C93_lines P s hp args)
    (Q := fun o o' => Alike o.stroke o'.stroke ∧ o' = { o with stroke := o'.stroke })
    (R := fun c c' => ∃ k, Alike c.stroke k ∧ c' = { c with stroke := k }) (linesMeans_det hp)
    (by
      rintro o o' c ⟨h1, h2⟩ ⟨x, y, g, u, l, l2, l3, rfl⟩
      refine ⟨{ o' with x := x, y := y, groups := g }, ⟨x, y, g, u, ?_, l2, l3, rfl⟩, o'.stroke, h1, ?_⟩
      · rw [h2]; exact l
      · rw [h2]) h
  exact ⟨k, h1, h2⟩

theorem settledBars {c : BarsConf φ} (h : SettledBars P s args c) :
    ∃ k, barsConfigure P s args = .ok { c with stroke := k } ∧ Alike c.stroke k := by
  obtain ⟨c', h1, k, h2, rfl⟩ := ok_of_settled (C93_bars P s hp args)
    (Q := fun o o' => Alike o.stroke o'.stroke ∧ o' = { o with stroke := o'.stroke })
    (R := fun c c' => ∃ k, Alike c.stroke k ∧ c' = { c with stroke := k }) (barsMeans_det hp)
    (by
      rintro o o' c ⟨h1, h2⟩ ⟨l, rfl⟩
      exact ⟨o', ⟨by rw [h2]; exact l, rfl⟩, o'.stroke, h1, h2⟩) h
  exact ⟨k, h1, h2⟩

theorem settledAreas {c : AreasConf} (h : SettledAreas P s args c) :
    ∃ k l, areasConfigure P s args = .ok { c with strokeHigh := k, strokeLow := l } ∧ Alike c.strokeHigh k ∧
      Alike c.strokeLow l := by
  obtain ⟨c', h1, k, l, h2, h3, rfl⟩ := ok_of_settled (C93_areas P s hp args)
    (Q := fun o o' => Alike o.strokeHigh o'.strokeHigh ∧ Alike o.strokeLow o'.strokeLow ∧
      o' = { o with strokeHigh := o'.strokeHigh, strokeLow := o'.strokeLow })
    (R := fun c c' => ∃ k l, Alike c.strokeHigh k ∧ Alike c.strokeLow l ∧ c' = { c with strokeHigh := k, strokeLow := l })
    (areasMeans_det hp)
    (by
      rintro o o' c ⟨h1, h1', h2⟩ ⟨x, y, u, l, l2, rfl⟩
      refine ⟨{ o' with x := x, y := y }, ⟨x, y, u, ?_, ?_, rfl⟩, o'.strokeHigh, o'.strokeLow, h1, h1', ?_⟩
      · rw [h2]; exact l
      · rw [h2]; exact l2
      · rw [h2]) h
  exact ⟨k, l, h1, h2, h3⟩

omit hp in
theorem colorsOf_congr {P : PlotEnv φ} {o o' : SeriesData} (h : o.colors = o'.colors ∧ o.colorMap = o'.colorMap)
    {cs : List Color} (hc : ColorsOf P o cs) : ColorsOf P o' cs := by
  unfold ColorsOf at hc ⊢
  rw [← h.1, ← h.2]
  exact hc

theorem settledErrorbars {c : ErrorbarsConf} (h : SettledErrorbars P s args c) :
    ∃ d, errorbarsConfigure P s args = .ok { c with series := d } := by
  obtain ⟨c', h1, k, rfl⟩ := ok_of_settled (C93_errorbars P s hp args)
    (Q := fun b b' => (b.series.colors = b'.series.colors ∧ b.series.colorMap = b'.series.colorMap) ∧
      b' = { b with series := b'.series })
    (R := fun c c' => ∃ d, c' = { c with series := d }) (errorbarsMeans_det hp)
    (by
      rintro o o' c ⟨h1, h2⟩ ⟨cs, l, rfl, l2⟩
      refine ⟨{ o' with colors := cs }, ⟨cs, colorsOf_congr h1 l, rfl, ?_⟩, o'.series, ?_⟩
      · rw [h2]; exact l2
      · rw [h2]) h
  exact ⟨k, h1⟩

theorem settledRectangles {c : RectanglesConf} (h : SettledRectangles P s args c) :
    ∃ d, rectanglesConfigure P s args = .ok { c with series := d } := by
  obtain ⟨c', h1, k, rfl⟩ := ok_of_settled (C93_rectangles P s hp args)
    (Q := fun b b' => (b.series.colors = b'.series.colors ∧ b.series.colorMap = b'.series.colorMap) ∧
      b' = { b with series := b'.series })
    (R := fun c c' => ∃ d, c' = { c with series := d }) (rectanglesMeans_det hp)
    (by
      rintro o o' c ⟨h1, h2⟩ ⟨x, y, cs, l1, l, rfl⟩
      refine ⟨{ o' with x := x, y := y, colors := cs }, ⟨x, y, cs, ?_, colorsOf_congr h1 l, rfl⟩, o'.series, ?_⟩
      · rw [h2]; exact l1
      · rw [h2]) h
  exact ⟨k, h1⟩

theorem settledGrid {c : GridConf} (h : SettledGrid P s args c) :
    ∃ k, gridConfigure P s args = .ok { c with stroke := k } ∧ Alike c.stroke k := by
  obtain ⟨c', h1, k, h2, rfl⟩ := ok_of_settled (C93_grid P s hp args)
    (Q := fun o o' => Alike o.stroke o'.stroke ∧ o' = { o with stroke := o'.stroke })
    (R := fun c c' => ∃ k, Alike c.stroke k ∧ c' = { c with stroke := k }) (gridMeans_det hp)
    (by
      rintro o o' c ⟨h1, h2⟩ rfl
      exact ⟨o', rfl, o'.stroke, h1, h2⟩) h
  exact ⟨k, h1, h2⟩

theorem settledBackground {c : BackgroundConf} (h : SettledBackground P s args c) :
    ∃ k, backgroundConfigure P s args = .ok { c with stroke := k } ∧ Alike c.stroke k := by
  obtain ⟨c', h1, k, h2, rfl⟩ := ok_of_settled (C93_background P s hp args)
    (Q := fun o o' => Alike o.stroke o'.stroke ∧ o' = { o with stroke := o'.stroke })
    (R := fun c c' => ∃ k, Alike c.stroke k ∧ c' = { c with stroke := k }) (backgroundMeans_det hp)
    (by
      rintro o o' c ⟨h1, h2⟩ rfl
      exact ⟨o', rfl, o'.stroke, h1, h2⟩) h
  exact ⟨k, h1, h2⟩

/-! ## Pictures -/

theorem C96_background : backgroundCmd P args s = (s', none) ↔ draws P BackgroundOf args s s' := by
  rw [C94_background]
  constructor
  · rintro ⟨c, shapes, hc, h1, h2⟩
    exact ⟨shapes, ⟨c, settled_of_ok (C93_background P s hp args) hc, h1⟩, h2⟩
  · rintro ⟨shapes, ⟨c, hc, h1⟩, h2⟩
    obtain ⟨k, hc', ha⟩ := settledBackground P s hp args hc
    refine ⟨_, shapes, hc', ?_, h2⟩
    rw [shape_alike ha] at h1
    exact h1

include hT

theorem C96_lines : linesCmd P args s = (s', none) ↔ draws P LinesOf args s s' := by
  rw [C94_lines P hT s s' hp]
  constructor
  · rintro ⟨c, us, vs, shapes, hc, h1, h2, h3, h4, h5, h6, h7⟩
    exact ⟨shapes, ⟨c, us, vs, settled_of_ok (C93_lines P s hp args) hc, h1, h2, h3, h4, h5, h6⟩, h7⟩
  · rintro ⟨shapes, ⟨c, us, vs, hc, h1, h2, h3, h4, h5, h6⟩, h7⟩
    obtain ⟨k, hc', ha⟩ := settledLines P s hp args hc
    refine ⟨_, us, vs, shapes, hc', h1, h2, h3, h4, h5, ?_, h7⟩
    unfold LinesPicture at h6 ⊢
    rw [shape_alike ha] at h6
    exact h6

theorem C96_points : pointsCmd P args s = (s', none) ↔ draws P PointsOf args s s' := by
  rw [C94_points P hT s s' hp]
  constructor
  · rintro ⟨c, us, vs, shapes, hc, h1, h2, h3, h4, h5, h6⟩
    exact ⟨shapes, ⟨c, us, vs, (settledPoints P s hp args c).1 hc, h1, h2, h3, h4, h5⟩, h6⟩
  · rintro ⟨shapes, ⟨c, us, vs, hc, h1, h2, h3, h4, h5⟩, h6⟩
    exact ⟨c, us, vs, shapes, (settledPoints P s hp args c).2 hc, h1, h2, h3, h4, h5, h6⟩

theorem C96_labels : labelsCmd P args s = (s', none) ↔ draws P LabelsOf args s s' := by
  rw [C94_labels P hT s s' hp]
  constructor
  · rintro ⟨c, us, vs, shapes, hc, h1, h2, h3, h4, h5, h6⟩
    exact ⟨shapes, ⟨c, us, vs, (settledLabels P s hp args c).1 hc, h1, h2, h3, h4, h5⟩, h6⟩
  · rintro ⟨shapes, ⟨c, us, vs, hc, h1, h2, h3, h4, h5⟩, h6⟩
    exact ⟨c, us, vs, shapes, (settledLabels P s hp args c).2 hc, h1, h2, h3, h4, h5, h6⟩

theorem C96_bars : barsCmd P args s = (s', none) ↔ draws P BarsOf args s s' := by
  rw [C94_bars P hT s s' hp]
  constructor
  · rintro ⟨c, us, vs, lows, shapes, hc, h1, h2, h3, h4, h5, h6⟩
    exact ⟨shapes, ⟨c, us, vs, lows, settled_of_ok (C93_bars P s hp args) hc, h1, h2, h3, h4, h5⟩, h6⟩
  · rintro ⟨shapes, ⟨c, us, vs, lows, hc, h1, h2, h3, h4, h5⟩, h6⟩
    obtain ⟨k, hc', ha⟩ := settledBars P s hp args hc
    refine ⟨_, us, vs, lows, shapes, hc', h1, h2, h3, h4, ?_, h6⟩
    unfold ColumnsPicture RowsPicture at h5 ⊢
    rw [shape_alike ha] at h5
    exact h5

theorem C96_vectors : vectorsCmd P args s = (s', none) ↔ draws P VectorsOf args s s' := by
  rw [C94_vectors P hT s s' hp]
  constructor
  · rintro ⟨c, us, vs, dus, dvs, shapes, hc, h1, h2, h3, h4, h5, h6, h7, h8, h9⟩
    exact ⟨shapes, ⟨c, us, vs, dus, dvs, (settledVectors P s hp args c).1 hc, h1, h2, h3, h4, h5, h6, h7, h8⟩, h9⟩
  · rintro ⟨shapes, ⟨c, us, vs, dus, dvs, hc, h1, h2, h3, h4, h5, h6, h7, h8⟩, h9⟩
    exact ⟨c, us, vs, dus, dvs, shapes, (settledVectors P s hp args c).2 hc, h1, h2, h3, h4, h5, h6, h7, h8, h9⟩

theorem C96_grid : gridCmd P args s = (s', none) ↔ draws P GridOf args s s' := by
  rw [C94_grid P hT s s']
  constructor
  · rintro ⟨c, us, vs, tus, tvs, shapes, hc, h1, h2, h3, h4⟩
    exact ⟨shapes, ⟨c, us, vs, tus, tvs, settled_of_ok (C93_grid P s hp args) hc, h1, h2, h3⟩, h4⟩
  · rintro ⟨shapes, ⟨c, us, vs, tus, tvs, hc, h1, h2, h3⟩, h4⟩
    obtain ⟨k, hc', ha⟩ := settledGrid P s hp args hc
    refine ⟨_, us, vs, tus, tvs, shapes, hc', h1, h2, ?_, h4⟩
    unfold GridPicture at h3 ⊢
    rw [shape_alike ha] at h3
    exact h3

theorem C96_legend : legendCmd P args s = (s', none) ↔ draws P LegendOf args s s' := by
  rw [C95_legend P hT s s']
  constructor
  · rintro ⟨c, shapes, hc, h1, h2⟩
    exact ⟨shapes, ⟨c, (settledLegend P s hp args c).1 hc, h1⟩, h2⟩
  · rintro ⟨shapes, ⟨c, hc, h1⟩, h2⟩
    exact ⟨c, shapes, (settledLegend P s hp args c).2 hc, h1, h2⟩

theorem C96_axes : axesCmd P args s = (s', none) ↔ axesStep P args s s' := by
  unfold axesStep
  simp only [← formatter_eq]
  have hx : axesCmd P args s = (s', none) → ∃ c, axesConfigure P s args = .ok c := by
    intro h
    obtain ⟨c, hc, -⟩ := withConfig_iff.1 h
    exact ⟨c, hc⟩
  constructor
  · intro h
    obtain ⟨c, hc⟩ := hx h
    obtain ⟨top, right, bottom, left, area, dt, dr, db, dl, h1, h2, h3, h4, h5, h6, -⟩ := (C91_axes P hT s s' hp args c hc).1 h
    exact ⟨c, top, right, bottom, left, area, dt, dr, db, dl, (settledAxes P s hp args c).1 hc, h1, h2, h3, h4, h5, h6⟩
  · rintro ⟨c, top, right, bottom, left, area, dt, dr, db, dl, hc, h1, h2, h3, h4, h5, h6⟩
    refine (C91_axes P hT s s' hp args c ((settledAxes P s hp args c).2 hc)).2
      ⟨top, right, bottom, left, area, dt, dr, db, dl, h1, h2, h3, h4, h5, h6, ?_⟩
    rw [h6]
    simp [PlotState.clip, plotGetClip]

theorem C96_axis : axisCmd P args s = (s', none) ↔ draws P AxisOf args s s' := by
  unfold draws AxisOf
  simp only [← formatter_eq]
  have e : axisCmd P args s = (s', none) ↔ ∃ a, axisConfigure P s args = .ok a ∧ plotAxis P a s = (s', none) := by
    unfold axisCmd
    rw [withConfig_iff]
  rw [e]
  constructor
  · rintro ⟨a, ha, h⟩
    obtain ⟨shapes, h1, h2⟩ := (C91_axis P hT a s s').1 h
    obtain ⟨g1, g2, g3⟩ := (C90_axis_partial P s hp args).1.1 ⟨a, ha⟩
    exact ⟨shapes, ⟨a, ⟨g1, g2, g3, C93_axis P s hp args a ha⟩, h1⟩, h2⟩
  · rintro ⟨shapes, ⟨a, ⟨g1, g2, g3, al, g4, g5⟩, h1⟩, h2⟩
    obtain ⟨b, hb⟩ := (C90_axis_partial P s hp args).1.2 ⟨g1, g2, g3⟩
    obtain ⟨al', g4', g5'⟩ := C93_axis P s hp args b hb
    have : al = al' := lastD g4 g4' (det_oneOf (by simp [alignWords]))
    subst this
    have e := axisMeans_det hp g5 g5'
    refine ⟨b, hb, (C91_axis P hT b s s').2 ⟨shapes, ?_, h2⟩⟩
    rw [e]
    exact h1

omit hT

theorem C96_areas : areasCmd P args s = (s', none) ↔ draws P AreasOf args s s' := by
  rw [C94_areas P s s' hp]
  constructor
  · rintro ⟨c, us, vs, uos, vos, lows, shapes, hc, h1, h2, h3, h4, h5, h6, h7⟩
    exact ⟨shapes, ⟨c, us, vs, uos, vos, lows, settled_of_ok (C93_areas P s hp args) hc, h1, h2, h3, h4, h5, h6⟩, h7⟩
  · rintro ⟨shapes, ⟨c, us, vs, uos, vos, lows, hc, h1, h2, h3, h4, h5, h6⟩, h7⟩
    obtain ⟨k, l, hc', ha, hb⟩ := settledAreas P s hp args hc
    refine ⟨_, us, vs, uos, vos, lows, shapes, hc', h1, h2, h3, h4, h5, ?_, h7⟩
    unfold AreaPicture at h6 ⊢
    rw [shape_alike ha, shape_alike hb] at h6
    exact h6

theorem C96_errorbars : errorbarsCmd P args s = (s', none) ↔ draws P ErrorbarsOf args s s' := by
  rw [C94_errorbars P s s' hp]
  constructor
  · rintro ⟨c, us, ul, uh, vs, vl, vh, shapes, hc, h1, h2, h3, h4⟩
    exact ⟨shapes, ⟨c, us, ul, uh, vs, vl, vh, settled_of_ok (C93_errorbars P s hp args) hc, h1, h2, h3⟩, h4⟩
  · rintro ⟨shapes, ⟨c, us, ul, uh, vs, vl, vh, hc, h1, h2, h3⟩, h4⟩
    obtain ⟨d, hc'⟩ := settledErrorbars P s hp args hc
    exact ⟨_, us, ul, uh, vs, vl, vh, shapes, hc', h1, h2, h3, h4⟩

theorem C96_rectangles : rectanglesCmd P args s = (s', none) ↔ draws P RectanglesOf args s s' := by
  rw [C94_rectangles P s s' hp]
  constructor
  · rintro ⟨c, us, vs, ws, hs, shapes, hc, h1, h2, h3, h4, h5, h6, h7⟩
    exact ⟨shapes, ⟨c, us, vs, ws, hs, settled_of_ok (C93_rectangles P s hp args) hc, h1, h2, h3, h4, h5, h6⟩, h7⟩
  · rintro ⟨shapes, ⟨c, us, vs, ws, hs, hc, h1, h2, h3, h4, h5, h6⟩, h7⟩
    obtain ⟨d, hc'⟩ := settledRectangles P s hp args hc
    exact ⟨_, us, vs, ws, hs, shapes, hc', h1, h2, h3, h4, h5, h6, h7⟩

end
end Clip
