import Verif.Lemmas.Options
set_option linter.unusedSimpArgs false
set_option linter.unusedTactic false
/-!
# C90: the options of the plot elements
-/
namespace Clip
open Commands Settings Pictures Drawing Options
variable {φ : Type} {P : PlotEnv φ} {E : ReadEnv}

macro "keeps" : tactic => `(tactic| first
  | exact keeps_field fun _ _ => rfl
  | exact keeps_part fun _ _ => rfl
  | (intro args s s₁ he; cases he; rfl)
  | exact keeps_cons (keeps_part fun _ _ => rfl) keeps_nil
  | exact keeps_cons (keeps_part fun _ _ => rfl) (keeps_cons (keeps_part fun _ _ => rfl) keeps_nil)
  | exact keeps_cons (keeps_part fun _ _ => rfl) (keeps_cons (keeps_part fun _ _ => rfl)
      (keeps_cons (keeps_part fun _ _ => rfl) keeps_nil)))

macro "member" : tactic => `(tactic| first
  | exact .head _
  | exact .tail _ (.head _)
  | exact .tail _ (.tail _ (.head _))
  | exact .tail _ (.tail _ (.tail _ (.head _)))
  | exact .tail _ (.tail _ (.tail _ (.tail _ (.head _))))
  | exact .tail _ (.tail _ (.tail _ (.tail _ (.tail _ (.head _)))))
  | exact .tail _ (.tail _ (.tail _ (.tail _ (.tail _ (.tail _ (.head _)))))))

/-- The effect of one option, by its own reader. -/
macro "leaf" : tactic => `(tactic| first
  | exact eff_size | exact eff_number | exact eff_measure | exact eff_texts | exact eff_data | exact eff_lengths | exact eff_polys
  | exact eff_color (by assumption) | exact eff_strokeColor (by assumption) | exact eff_strokeWidth | exact eff_strokeStyle
  | exact eff_fillStyle (by assumption) | exact eff_fillColor (by assumption) | exact eff_limits | exact eff_minimum | exact eff_maximum
  | exact eff_pad | exact eff_scale
  | exact eff_font fun _ _ => rfl | exact eff_string fun _ _ => rfl | exact eff_marker fun _ _ => rfl
  | exact eff_markers fun _ _ => rfl | exact eff_placement fun _ _ => rfl | exact eff_colorMap fun _ _ => rfl
  | exact eff_sizeMap fun _ _ => rfl | exact eff_direction fun _ _ => rfl
  | (intro args s s₁ he; cases he; rfl))

macro "effect" : tactic => `(tactic| first
  | leaf
  | exact effect_part id (fun _ _ => rfl) (fun _ => rfl) (by leaf)
  | exact effect_here (effect_part id (fun _ _ => rfl) (fun _ => rfl) (by leaf)) (by keeps)
  | exact effect_there (by keeps) (effect_here (effect_part id (fun _ _ => rfl) (fun _ => rfl) (by leaf)) (by keeps))
  | exact effect_there (by keeps) (effect_there (by keeps)
      (effect_here (effect_part id (fun _ _ => rfl) (fun _ => rfl) (by leaf)) (by keeps))))

/-- All options of a plain table, for one setting. -/
macro "setting" : tactic => `(tactic|
  repeat' (first
    | exact covers_nil
    | refine covers_append ?_ ?_
    | refine covers_skip (by simp [scaleX, scaleY]) (by keeps) ?_
    | refine covers_act _ (by member) (by effect) ?_
    | exact covers_out (fun _ _ => rfl) (by simp [dataOpts, scaleOpts, limitOpts, colorOpts, sizeOpts, scaleX, scaleY])))

theorem scales_x : Covers (scaleOpts P E) (·.x) (scaleX P E) := by
  unfold scaleOpts limitOpts; setting
theorem scales_y : Covers (scaleOpts P E) (·.y) (scaleY P E) := by
  unfold scaleOpts limitOpts; setting
theorem refs_path : Covers dataOpts (·.path) [("data", sets IsText)] := by unfold dataOpts; setting
theorem refs_format : Covers dataOpts (·.format) [("data-format", sets IsText)] := by unfold dataOpts; setting
theorem refs_x : Covers dataOpts (·.refX) [("data-x", sets fun args v => v = args.head?)] := by unfold dataOpts; setting
theorem refs_y : Covers dataOpts (·.refY) [("data-y", sets fun args v => v = args.head?)] := by unfold dataOpts; setting

theorem series_colors : Covers (colorOpts P E) (·.colors) [("colors", Texts P)] := by unfold colorOpts; setting
theorem series_colorMap : Covers (colorOpts P E) (·.colorMap)
    [("color-map", sets fun args v => ∃ m, readColorMap E args = .ok m ∧ v = some m)] := by unfold colorOpts; setting
theorem series_colors' : Covers (colorOpts P E ++ sizeOpts P E) (·.colors) [("colors", Texts P)] := by
  unfold colorOpts sizeOpts; setting
theorem series_colorMap' : Covers (colorOpts P E ++ sizeOpts P E) (·.colorMap)
    [("color-map", sets fun args v => ∃ m, readColorMap E args = .ok m ∧ v = some m)] := by
  unfold colorOpts sizeOpts; setting
theorem series_sizes : Covers (colorOpts P E ++ sizeOpts P E) (·.sizes) [("sizes", Texts P)] := by
  unfold colorOpts sizeOpts; setting
theorem series_sizeMap : Covers (colorOpts P E ++ sizeOpts P E) (·.sizeMap)
    [("size-map", sets fun args v => ∃ m, readSizeMap E args = .ok m ∧ v = some m)] := by
  unfold colorOpts sizeOpts; setting
theorem limits_x : Covers (limitOpts P E) (·.x) [("limit-x", scaleLimits E), ("limit-x-min", scaleMinimum E),
    ("limit-x-max", scaleMaximum E), ("scale-x", ScaleWords P)] := by unfold limitOpts; setting
theorem limits_y : Covers (limitOpts P E) (·.y) [("limit-y", scaleLimits E), ("limit-y-min", scaleMinimum E),
    ("limit-y-max", scaleMaximum E), ("scale-y", ScaleWords P)] := by unfold limitOpts; setting

/-- All options of an element, for one setting. -/
macro "settings" : tactic => `(tactic|
  repeat' (first
    | exact covers_nil
    | refine covers_append ?_ ?_
    | exact covers_in _ (fun _ _ => rfl) (fun _ => rfl) scales_x
    | exact covers_in _ (fun _ _ => rfl) (fun _ => rfl) scales_y
    | exact covers_in _ (fun _ _ => rfl) (fun _ => rfl) refs_path
    | exact covers_in _ (fun _ _ => rfl) (fun _ => rfl) refs_format
    | exact covers_in _ (fun _ _ => rfl) (fun _ => rfl) refs_x
    | exact covers_in _ (fun _ _ => rfl) (fun _ => rfl) refs_y
    | exact covers_in _ (fun _ _ => rfl) (fun _ => rfl) series_colors
    | exact covers_in _ (fun _ _ => rfl) (fun _ => rfl) series_colorMap
    | exact covers_in _ (fun _ _ => rfl) (fun _ => rfl) series_colors'
    | exact covers_in _ (fun _ _ => rfl) (fun _ => rfl) series_colorMap'
    | exact covers_in _ (fun _ _ => rfl) (fun _ => rfl) series_sizes
    | exact covers_in _ (fun _ _ => rfl) (fun _ => rfl) series_sizeMap
    | exact covers_in _ (fun _ _ => rfl) (fun _ => rfl) limits_x
    | exact covers_in _ (fun _ _ => rfl) (fun _ => rfl) limits_y
    | setting))

theorem kept_of_covers {σ α : Type} {opts : List (String × Handler σ Fail)} {get : σ → α} (h : Covers opts get [])
    {cmds : List Expr} {s s' : σ} (he : Executed (optTable opts) cmds s s') : get s' = get s :=
  kept_of_executed (fun p hp => by
    rcases h p hp with ⟨f, hf, _⟩ | ⟨_, hk⟩
    · simp at hf
    · exact hk) he

/-- The options of the element, after its table has been unfolded. -/
macro "opt" : tactic => `(tactic| (
  show Covers _ _ _
  try simp only [List.map_cons, List.map_nil]
  settings))

macro "opt_acts" g:term:max t:ident : tactic => `(tactic| (
  first
  | refine last_of_executed (get := $g) ?_ $(Lean.mkIdent `he)
  | refine acts_of_executed (get := $g) ?_ $(Lean.mkIdent `he)
  unfold $t
  opt))

macro "opt_kept" g:term:max t:ident : tactic => `(tactic| (
  refine kept_of_covers (get := $g) ?_ $(Lean.mkIdent `he)
  unfold $t
  opt))

set_option maxHeartbeats 4000000 in
theorem lines_means (hp : E.palette ≠ []) {cmds : List Expr} {a b : LinesConf φ}
    (he : Executed (optTable (linesOpts P E)) cmds a b) : LinesMeans P E cmds a b where
  known := known_of_executed (by simp [linesOpts, liftOpts, dataOpts, scaleOpts, limitOpts, colorOpts, sizeOpts, dataNames, scaleNames]) he
  data := {
    path := by opt_acts (·.refs.path) linesOpts
    format := by opt_acts (·.refs.format) linesOpts
    x := by opt_acts (·.refs.refX) linesOpts
    y := by opt_acts (·.refs.refY) linesOpts }
  scales := {
    x := by opt_acts (·.scales.x) linesOpts
    y := by opt_acts (·.scales.y) linesOpts }
  stroke := by opt_acts (·.stroke) linesOpts
  markerSize := by opt_acts (·.markerSize) linesOpts
  markerShape := by opt_acts (·.markerShape) linesOpts
  markerColor := by opt_acts (·.markerColor) linesOpts
  labels := by opt_acts (·.labels) linesOpts
  labelFonts := (by opt_kept (·.labelFonts) linesOpts)
  labelFontSize := by opt_acts (·.labelFontSize) linesOpts
  labelColor := by opt_acts (·.labelColor) linesOpts
  labelPadding := by opt_acts (·.labelPadding) linesOpts
  loaded := ⟨(by opt_kept (·.x) linesOpts), (by opt_kept (·.y) linesOpts), (by opt_kept (·.groups) linesOpts)⟩

set_option maxHeartbeats 4000000 in
theorem points_means (hp : E.palette ≠ []) {cmds : List Expr} {a b : PointsConf φ}
    (he : Executed (optTable (pointsOpts P E)) cmds a b) : PointsMeans P E cmds a b where
  known := known_of_executed (by simp [pointsOpts, liftOpts, dataOpts, scaleOpts, limitOpts, colorOpts, sizeOpts, dataNames, scaleNames]) he
  data := {
    path := by opt_acts (·.refs.path) pointsOpts
    format := by opt_acts (·.refs.format) pointsOpts
    x := by opt_acts (·.refs.refX) pointsOpts
    y := by opt_acts (·.refs.refY) pointsOpts }
  scales := {
    x := by opt_acts (·.scales.x) pointsOpts
    y := by opt_acts (·.scales.y) pointsOpts }
  colors := {
    colors := by opt_acts (·.series.colors) pointsOpts
    colorMap := by opt_acts (·.series.colorMap) pointsOpts }
  sizes := {
    sizes := by opt_acts (·.series.sizes) pointsOpts
    sizeMap := by opt_acts (·.series.sizeMap) pointsOpts }
  shape := by opt_acts (·.shape) pointsOpts
  shapes := by opt_acts (·.shapes) pointsOpts
  size := by opt_acts (·.size) pointsOpts
  color := by opt_acts (·.color) pointsOpts
  labels := by opt_acts (·.labels) pointsOpts
  labelFonts := by opt_acts (·.labelFonts) pointsOpts
  labelFontSize := by opt_acts (·.labelFontSize) pointsOpts
  labelColor := by opt_acts (·.labelColor) pointsOpts
  labelPadding := by opt_acts (·.labelPadding) pointsOpts
  loaded := ⟨(by opt_kept (·.x) pointsOpts), (by opt_kept (·.y) pointsOpts), (by opt_kept (·.colors) pointsOpts), (by opt_kept (·.sizes) pointsOpts)⟩

set_option maxHeartbeats 4000000 in
theorem bars_means (hp : E.palette ≠ []) {cmds : List Expr} {a b : BarsConf φ}
    (he : Executed (optTable (barsOpts P E)) cmds a b) : BarsMeans P E cmds a b where
  known := known_of_executed (by simp [barsOpts, liftOpts, dataOpts, scaleOpts, limitOpts, colorOpts, sizeOpts, dataNames, scaleNames]) he
  scales := {
    x := by opt_acts (·.scales.x) barsOpts
    y := by opt_acts (·.scales.y) barsOpts }
  x := by opt_acts (·.x) barsOpts
  y := by opt_acts (·.y) barsOpts
  xoffset := by opt_acts (·.xoffset) barsOpts
  yoffset := by opt_acts (·.yoffset) barsOpts
  size := by opt_acts (·.size) barsOpts
  sizes := by opt_acts (·.sizes) barsOpts
  offset := by opt_acts (·.offset) barsOpts
  offsets := by opt_acts (·.offsets) barsOpts
  stroke := by opt_acts (·.stroke) barsOpts
  fill := by opt_acts (·.fill) barsOpts
  direction := by opt_acts (·.direction) barsOpts
  labels := by opt_acts (·.labels) barsOpts
  labelFonts := (by opt_kept (·.labelFonts) barsOpts)
  labelFontSize := by opt_acts (·.labelFontSize) barsOpts
  labelColor := by opt_acts (·.labelColor) barsOpts
  labelPadding := by opt_acts (·.labelPadding) barsOpts

set_option maxHeartbeats 4000000 in
theorem areas_means (hp : E.palette ≠ []) {cmds : List Expr} {a b : AreasConf}
    (he : Executed (optTable (areasOpts P E)) cmds a b) : AreasMeans P E cmds a b where
  known := known_of_executed (by simp [areasOpts, liftOpts, dataOpts, scaleOpts, limitOpts, colorOpts, sizeOpts, dataNames, scaleNames]) he
  data := {
    path := by opt_acts (·.refs.path) areasOpts
    format := by opt_acts (·.refs.format) areasOpts
    x := by opt_acts (·.refs.refX) areasOpts
    y := by opt_acts (·.refs.refY) areasOpts }
  scales := {
    x := by opt_acts (·.scales.x) areasOpts
    y := by opt_acts (·.scales.y) areasOpts }
  x := by opt_acts (·.x) areasOpts
  y := by opt_acts (·.y) areasOpts
  xoffset := by opt_acts (·.xoffset) areasOpts
  yoffset := by opt_acts (·.yoffset) areasOpts
  strokeHigh := by opt_acts (·.strokeHigh) areasOpts
  strokeLow := by opt_acts (·.strokeLow) areasOpts
  fill := by opt_acts (·.fill) areasOpts
  direction := by opt_acts (·.direction) areasOpts

set_option maxHeartbeats 4000000 in
theorem errorbars_means (hp : E.palette ≠ []) {cmds : List Expr} {a b : ErrorbarsConf}
    (he : Executed (optTable (errorbarsOpts P E)) cmds a b) : ErrorbarsMeans P E cmds a b where
  known := known_of_executed (by simp [errorbarsOpts, liftOpts, dataOpts, scaleOpts, limitOpts, colorOpts, sizeOpts, dataNames, scaleNames]) he
  scales := {
    x := by opt_acts (·.scales.x) errorbarsOpts
    y := by opt_acts (·.scales.y) errorbarsOpts }
  colors := {
    colors := by opt_acts (·.series.colors) errorbarsOpts
    colorMap := by opt_acts (·.series.colorMap) errorbarsOpts }
  x := by opt_acts (·.x) errorbarsOpts
  y := by opt_acts (·.y) errorbarsOpts
  xLow := by opt_acts (·.xLow) errorbarsOpts
  xHigh := by opt_acts (·.xHigh) errorbarsOpts
  yLow := by opt_acts (·.yLow) errorbarsOpts
  yHigh := by opt_acts (·.yHigh) errorbarsOpts
  barWidth := by opt_acts (·.barWidth) errorbarsOpts
  color := by opt_acts (·.strokeColor) errorbarsOpts
  strokeWidth := by opt_acts (·.strokeWidth) errorbarsOpts
  loaded := (by opt_kept (·.colors) errorbarsOpts)

set_option maxHeartbeats 4000000 in
theorem rectangles_means (hp : E.palette ≠ []) {cmds : List Expr} {a b : RectanglesConf}
    (he : Executed (optTable (rectanglesOpts P E)) cmds a b) : RectanglesMeans P E cmds a b where
  known := known_of_executed (by simp [rectanglesOpts, liftOpts, dataOpts, scaleOpts, limitOpts, colorOpts, sizeOpts, dataNames, scaleNames]) he
  data := {
    path := by opt_acts (·.refs.path) rectanglesOpts
    format := by opt_acts (·.refs.format) rectanglesOpts
    x := by opt_acts (·.refs.refX) rectanglesOpts
    y := by opt_acts (·.refs.refY) rectanglesOpts }
  scales := {
    x := by opt_acts (·.scales.x) rectanglesOpts
    y := by opt_acts (·.scales.y) rectanglesOpts }
  colors := {
    colors := by opt_acts (·.series.colors) rectanglesOpts
    colorMap := by opt_acts (·.series.colorMap) rectanglesOpts }
  sizeX := by opt_acts (·.sizeX) rectanglesOpts
  sizeY := by opt_acts (·.sizeY) rectanglesOpts
  sizeXDefault := by opt_acts (·.sizeXDefault) rectanglesOpts
  sizeYDefault := by opt_acts (·.sizeYDefault) rectanglesOpts
  color := by opt_acts (·.color) rectanglesOpts
  loaded := ⟨(by opt_kept (·.x) rectanglesOpts), (by opt_kept (·.y) rectanglesOpts), (by opt_kept (·.colors) rectanglesOpts)⟩

set_option maxHeartbeats 4000000 in
theorem vectors_means (hp : E.palette ≠ []) {cmds : List Expr} {a b : VectorsConf}
    (he : Executed (optTable (vectorsOpts P E)) cmds a b) : VectorsMeans P E cmds a b where
  known := known_of_executed (by simp [vectorsOpts, liftOpts, dataOpts, scaleOpts, limitOpts, colorOpts, sizeOpts, dataNames, scaleNames]) he
  data := {
    path := by opt_acts (·.refs.path) vectorsOpts
    format := by opt_acts (·.refs.format) vectorsOpts
    x := by opt_acts (·.refs.refX) vectorsOpts
    y := by opt_acts (·.refs.refY) vectorsOpts }
  scales := {
    x := by opt_acts (·.scales.x) vectorsOpts
    y := by opt_acts (·.scales.y) vectorsOpts }
  colors := {
    colors := by opt_acts (·.series.colors) vectorsOpts
    colorMap := by opt_acts (·.series.colorMap) vectorsOpts }
  sizes := {
    sizes := by opt_acts (·.series.sizes) vectorsOpts
    sizeMap := by opt_acts (·.series.sizeMap) vectorsOpts }
  dx := by opt_acts (·.dx) vectorsOpts
  dy := by opt_acts (·.dy) vectorsOpts
  color := by opt_acts (·.color) vectorsOpts
  size := by opt_acts (·.size) vectorsOpts
  loaded := ⟨(by opt_kept (·.x) vectorsOpts), (by opt_kept (·.y) vectorsOpts), (by opt_kept (·.colors) vectorsOpts), (by opt_kept (·.sizes) vectorsOpts)⟩

set_option maxHeartbeats 4000000 in
theorem labels_means (hp : E.palette ≠ []) {cmds : List Expr} {a b : LabelsConf φ}
    (he : Executed (optTable (labelsOpts P E)) cmds a b) : LabelsMeans P E cmds a b where
  known := known_of_executed (by simp [labelsOpts, liftOpts, dataOpts, scaleOpts, limitOpts, colorOpts, sizeOpts, dataNames, scaleNames]) he
  data := {
    path := by opt_acts (·.refs.path) labelsOpts
    format := by opt_acts (·.refs.format) labelsOpts
    x := by opt_acts (·.refs.refX) labelsOpts
    y := by opt_acts (·.refs.refY) labelsOpts }
  scales := {
    x := by opt_acts (·.scales.x) labelsOpts
    y := by opt_acts (·.scales.y) labelsOpts }
  labels := by opt_acts (·.labels) labelsOpts
  labelFonts := by opt_acts (·.labelFonts) labelsOpts
  labelFontSize := by opt_acts (·.labelFontSize) labelsOpts
  labelColor := by opt_acts (·.labelColor) labelsOpts
  labelPadding := by opt_acts (·.labelPadding) labelsOpts
  loaded := ⟨(by opt_kept (·.x) labelsOpts), (by opt_kept (·.y) labelsOpts)⟩

set_option maxHeartbeats 4000000 in
theorem polygons_means (hp : E.palette ≠ []) {cmds : List Expr} {a b : PolygonsConf}
    (he : Executed (optTable (polygonsOpts P E)) cmds a b) : PolygonsMeans P E cmds a b where
  known := known_of_executed (by simp [polygonsOpts, liftOpts, dataOpts, scaleOpts, limitOpts, colorOpts, sizeOpts, dataNames, scaleNames]) he
  x := by opt_acts (·.scales.x) polygonsOpts
  y := by opt_acts (·.scales.y) polygonsOpts
  polys := by opt_acts (·.polys) polygonsOpts
  fill := by opt_acts (·.fill) polygonsOpts
  stroke := by opt_acts (·.stroke) polygonsOpts

set_option maxHeartbeats 4000000 in
theorem grid_means (hp : E.palette ≠ []) {cmds : List Expr} {a b : GridConf}
    (he : Executed (optTable (gridOpts P E)) cmds a b) : GridMeans P E cmds a b where
  known := known_of_executed (by simp [gridOpts, liftOpts, dataOpts, scaleOpts, limitOpts, colorOpts, sizeOpts, dataNames, scaleNames]) he
  scales := {
    x := by opt_acts (·.scales.x) gridOpts
    y := by opt_acts (·.scales.y) gridOpts }
  layoutX := by opt_acts (·.layoutX) gridOpts
  layoutY := by opt_acts (·.layoutY) gridOpts
  stroke := by opt_acts (·.stroke) gridOpts

theorem background_means (hp : E.palette ≠ []) {cmds : List Expr} {a b : BackgroundConf}
    (he : Executed (optTable (backgroundOpts E)) cmds a b) : BackgroundMeans E cmds a b where
  known := known_of_executed (by simp [backgroundOpts, liftOpts, dataOpts, scaleOpts, limitOpts, colorOpts, sizeOpts, dataNames, scaleNames]) he
  fill := by opt_acts (·.fill) backgroundOpts
  stroke := by opt_acts (·.stroke) backgroundOpts

end Clip
