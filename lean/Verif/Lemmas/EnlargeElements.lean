import Verif.Lemmas.EnlargeOptions
set_option linter.unusedSimpArgs false
/-! # Elements at another resolution -/
namespace Clip.Enlarge
open Settings Drawing Pictures PlotSpec AxisSpec DataSpec Elements Options LegendSpec Whole
noncomputable section
variable {φ : Type} {k : ℝ} {P : PlotEnv φ} {s t : PlotState φ} {cs : List Expr}

theorem env_big (hs : State k s t) : t.env P = env (s.env P) t.layer.size := by
  show ReadEnv.mk _ _ _ = ReadEnv.mk _ _ _
  rw [hs.page.palette]; rfl

theorem resized (hs : State k s t) : Resized k (s.env P) t.layer.size := ⟨hs.page.dpi, hs.page.fontSize⟩

theorem em_eq (s : PlotState φ) : Defaults.em s = layerSize s.layer.size.fontSize s.layer.size.dpi := by
  unfold Defaults.em layerSize
  cases s.layer.size.fontSize with
  | mk u v => cases u <;> simp [unitFromMm, unitFromPt, unitFromPx] <;> ring

theorem em_big (hs : State k s t) : Defaults.em t = k * Defaults.em s := by
  rw [em_eq, em_eq, hs.page.fontSize]

theorem pt_state (hs : State k s t) (v : ℝ) : Defaults.pt t v = k * Defaults.pt s v := by
  unfold Defaults.pt; rw [hs.page.dpi]; ring

theorem solid_big (w : ℝ) : Defaults.solid (k * w) = stroke k (Defaults.solid w) := by
  unfold Defaults.solid stroke measure; simp

theorem solid_zero : Defaults.solid 0 = stroke k (Defaults.solid 0) := by
  unfold Defaults.solid stroke measure; simp

theorem noLength_big : Defaults.noLength = measure k Defaults.noLength := by unfold Defaults.noLength measure; simp

section
variable {E : ReadEnv} {z : LayerSize}

theorem takes_scales : List.Forall₂ (TakesToo E.stod) (takesScales P E) (takesScales P (env E z)) := takes_all _
theorem takes_colors : List.Forall₂ (TakesToo E.stod) (takesColors P E) (takesColors P (env E z)) := takes_all _
theorem takes_sizes : List.Forall₂ (TakesToo E.stod) (takesSizes P E) (takesSizes P (env E z)) :=
  .cons (takes_none (by decide +kernel)) (.cons (takes_none (by decide +kernel)) .nil)

/-! ## Lines -/

theorem lines_takes (hk : k ≠ 0) (hz : Resized k E z) :
    List.Forall₂ (TakesToo E.stod) (linesTakes P E) (linesTakes P (env E z)) :=
  List.rel_append (List.rel_append (takes_all _) takes_scales) (by takesToo hk hz)

theorem lines_means (hz : Resized k E z) (hc : ∀ c ∈ cs, Plain E.stod c) {a b : LinesConf φ} (h : LinesMeans P E cs a b) :
    LinesMeans P (env E z) cs (lines k a) (lines k b) :=
  ⟨h.known, h.data, ⟨h.scales.x, h.scales.y⟩, acts_big (g := stroke k) (by growns hz) hc h.stroke, last_big (g := (k * ·)) (by growns hz) hc h.markerSize, h.markerShape,
    h.markerColor, h.labels, h.labelFonts, last_big (g := (k * ·)) (by growns hz) hc h.labelFontSize, h.labelColor,
    last_big (g := (k * ·)) (by growns hz) hc h.labelPadding, h.loaded⟩

end

theorem lines_start (hs : State k s t) : Defaults.lines t = lines k (Defaults.lines s) := by
  unfold Defaults.lines lines
  rw [pt_state hs, em_big hs, hs.scales, hs.page.fonts, solid_big]
  simp only [mul_zero]

theorem lines_settled (hk : k ≠ 0) (hs : State k s t) (hc : ∀ c ∈ cs, Plain P.stod c) {c : LinesConf φ}
    (h : SettledLines P s cs c) : SettledLines P t cs (lines k c) := by
  obtain ⟨ha, o, hm, x, y, g, u, h3, h4, h5, rfl⟩ := h
  unfold SettledLines Settled
  rw [env_big hs, lines_start hs]
  exact ⟨accepted_big (lines_takes hk (resized hs)) hc ha, _, lines_means (resized hs) hc hm, x, y, g, u, h3, h4, h5, rfl⟩

theorem acts_none {stod : Str → Option (ℝ × Nat)} {α : Type} {n : String} {f f' : Effect α} (hn : n ∈ pixelOptions)
    (hc : ∀ c ∈ cs, Plain stod c) {a b : α} (h : Acts [(n, f)] cs a b) : Acts [(n, f')] cs a b := by
  have := acts_big (g := id) (t' := [(n, f')]) (.cons (grows_none hn) .nil) hc h
  exact this

theorem sizes_means {E : ReadEnv} {z : LayerSize} (hc : ∀ c ∈ cs, Plain E.stod c) {a b : SeriesData} (h : SizesMeans P E cs a b) :
    SizesMeans P (env E z) cs a b :=
  ⟨h.sizes, acts_none (by decide +kernel) hc h.sizeMap⟩

theorem no_sizes {E : ReadEnv} (hc : ∀ c ∈ cs, Plain E.stod c) {a b : SeriesData} (h : SizesMeans P E cs a b) (ha : a.sizes = [])
    {sizes : List ℝ} (hs : SizesOf P b sizes) : sizes = [] := by
  have := unused (by decide +kernel) hc h.sizes
  unfold SizesOf at hs
  rw [this, ha] at hs
  cases hs; rfl

/-! ## Points -/

theorem points_takes {E : ReadEnv} {z : LayerSize} (hk : k ≠ 0) (hz : Resized k E z) :
    List.Forall₂ (TakesToo E.stod) (pointsTakes P E) (pointsTakes P (env E z)) :=
  List.rel_append (List.rel_append (List.rel_append (takes_all _) takes_scales) (List.rel_append takes_colors takes_sizes)) (by takesToo hk hz)

theorem points_means {E : ReadEnv} {z : LayerSize} (hz : Resized k E z) (hc : ∀ c ∈ cs, Plain E.stod c) {a b : PointsConf φ}
    (h : PointsMeans P E cs a b) : PointsMeans P (env E z) cs (points k a) (points k b) :=
  ⟨h.known, h.data, ⟨h.scales.x, h.scales.y⟩, ⟨h.colors.colors, h.colors.colorMap⟩, sizes_means hc h.sizes, h.shape, h.shapes, last_big (g := (k * ·)) (by growns hz) hc h.size, h.color, h.labels, h.labelFonts, last_big (g := (k * ·)) (by growns hz) hc h.labelFontSize, h.labelColor, last_big (g := (k * ·)) (by growns hz) hc h.labelPadding, ⟨h.loaded.1, h.loaded.2.1, h.loaded.2.2.1, congrArg (List.map (k * ·)) h.loaded.2.2.2⟩⟩

theorem points_start (hs : State k s t) : Defaults.points t = points k (Defaults.points s) := by
  unfold Defaults.points points
  rw [pt_state hs, em_big hs, hs.scales, hs.page.fonts]
  simp only [mul_zero, List.map_nil]

theorem points_settled (hk : k ≠ 0) (hs : State k s t) (hc : ∀ c ∈ cs, Plain P.stod c) {c : PointsConf φ}
    (h : SettledPoints P s cs c) : SettledPoints P t cs (points k c) := by
  obtain ⟨ha, o, hm, x, y, colors, sizes, h3, h4, h5, rfl⟩ := h
  obtain rfl := no_sizes hc hm.sizes rfl h5
  unfold SettledPoints Settled
  rw [env_big hs, points_start hs]
  exact ⟨accepted_big (points_takes hk (resized hs)) hc ha, _, points_means (resized hs) hc hm, x, y, colors, [], h3, h4, h5, rfl⟩

/-! ## Bars -/

theorem bars_takes {E : ReadEnv} {z : LayerSize} (hk : k ≠ 0) (hz : Resized k E z) :
    List.Forall₂ (TakesToo E.stod) (barsTakes P E) (barsTakes P (env E z)) :=
  List.rel_append takes_scales (by takesToo hk hz)

theorem bars_means {E : ReadEnv} {z : LayerSize} (hz : Resized k E z) (hc : ∀ c ∈ cs, Plain E.stod c) {a b : BarsConf φ}
    (h : BarsMeans P E cs a b) : BarsMeans P (env E z) cs (bars k a) (bars k b) :=
  ⟨h.known, ⟨h.scales.x, h.scales.y⟩, h.x, h.y, h.xoffset, h.yoffset, last_big (g := (k * ·)) (by growns hz) hc h.size, acts_big (g := List.map (measure k)) (by growns hz) hc h.sizes, last_big (g := (k * ·)) (by growns hz) hc h.offset, acts_big (g := List.map (measure k)) (by growns hz) hc h.offsets, acts_big (g := stroke k) (by growns hz) hc h.stroke, acts_big (g := fill k) (by growns hz) hc h.fill, h.direction, h.labels, h.labelFonts, last_big (g := (k * ·)) (by growns hz) hc h.labelFontSize, h.labelColor, last_big (g := measure k) (by growns hz) hc h.labelPadding⟩

theorem bars_start (hs : State k s t) : Defaults.bars t = bars k (Defaults.bars s) := by
  unfold Defaults.bars bars
  rw [em_big hs, hs.scales, hs.page.fonts, ← noLength_big, ← solid_zero]
  simp only [mul_zero, List.map_nil]; rfl

theorem bars_settled (hk : k ≠ 0) (hs : State k s t) (hc : ∀ c ∈ cs, Plain P.stod c) {c : BarsConf φ}
    (h : SettledBars P s cs c) : SettledBars P t cs (bars k c) := by
  obtain ⟨ha, o, hm, h3, rfl⟩ := h
  unfold SettledBars Settled
  rw [env_big hs, bars_start hs]
  exact ⟨accepted_big (bars_takes hk (resized hs)) hc ha, _, bars_means (resized hs) hc hm, h3, rfl⟩

/-! ## Areas -/

theorem areas_takes {E : ReadEnv} {z : LayerSize} (hk : k ≠ 0) (hz : Resized k E z) :
    List.Forall₂ (TakesToo E.stod) (areasTakes P E) (areasTakes P (env E z)) :=
  List.rel_append (List.rel_append (takes_all _) takes_scales) (by takesToo hk hz)

theorem areas_means {E : ReadEnv} {z : LayerSize} (hz : Resized k E z) (hc : ∀ c ∈ cs, Plain E.stod c) {a b : AreasConf}
    (h : AreasMeans P E cs a b) : AreasMeans P (env E z) cs (areas k a) (areas k b) :=
  ⟨h.known, h.data, ⟨h.scales.x, h.scales.y⟩, h.x, h.y, h.xoffset, h.yoffset, acts_big (g := stroke k) (by growns hz) hc h.strokeHigh, acts_big (g := stroke k) (by growns hz) hc h.strokeLow, acts_big (g := fill k) (by growns hz) hc h.fill, h.direction⟩

theorem areas_start (hs : State k s t) : Defaults.areas t = areas k (Defaults.areas s) := by
  unfold Defaults.areas areas
  rw [hs.scales, ← solid_zero]; rfl

theorem areas_settled (hk : k ≠ 0) (hs : State k s t) (hc : ∀ c ∈ cs, Plain P.stod c) {c : AreasConf}
    (h : SettledAreas P s cs c) : SettledAreas P t cs (areas k c) := by
  obtain ⟨ha, o, hm, x, y, u, h3, h4, rfl⟩ := h
  unfold SettledAreas Settled
  rw [env_big hs, areas_start hs]
  exact ⟨accepted_big (areas_takes hk (resized hs)) hc ha, _, areas_means (resized hs) hc hm, x, y, u, h3, h4, rfl⟩

/-! ## Errorbars -/

theorem errorbars_takes {E : ReadEnv} {z : LayerSize} (hk : k ≠ 0) (hz : Resized k E z) :
    List.Forall₂ (TakesToo E.stod) (errorbarsTakes P E) (errorbarsTakes P (env E z)) :=
  List.rel_append (List.rel_append takes_scales takes_colors) (by takesToo hk hz)

theorem errorbars_means {E : ReadEnv} {z : LayerSize} (hz : Resized k E z) (hc : ∀ c ∈ cs, Plain E.stod c) {a b : ErrorbarsConf}
    (h : ErrorbarsMeans P E cs a b) : ErrorbarsMeans P (env E z) cs (errorbars k a) (errorbars k b) :=
  ⟨h.known, ⟨h.scales.x, h.scales.y⟩, ⟨h.colors.colors, h.colors.colorMap⟩, h.x, h.y, h.xLow, h.xHigh, h.yLow, h.yHigh, last_big (g := (k * ·)) (by growns hz) hc h.barWidth, h.color, last_big (g := (k * ·)) (by growns hz) hc h.strokeWidth, h.loaded⟩

theorem errorbars_start (hs : State k s t) : Defaults.errorbars t = errorbars k (Defaults.errorbars s) := by
  unfold Defaults.errorbars errorbars
  rw [pt_state hs, pt_state hs, hs.scales]

theorem errorbars_settled (hk : k ≠ 0) (hs : State k s t) (hc : ∀ c ∈ cs, Plain P.stod c) {c : ErrorbarsConf}
    (h : SettledErrorbars P s cs c) : SettledErrorbars P t cs (errorbars k c) := by
  obtain ⟨ha, o, hm, colors, h3, rfl, h4⟩ := h
  unfold SettledErrorbars Settled
  rw [env_big hs, errorbars_start hs]
  exact ⟨accepted_big (errorbars_takes hk (resized hs)) hc ha, _, errorbars_means (resized hs) hc hm, colors, h3, rfl, h4⟩

/-! ## Rectangles -/

theorem rectangles_takes {E : ReadEnv} {z : LayerSize} (hk : k ≠ 0) (hz : Resized k E z) :
    List.Forall₂ (TakesToo E.stod) (rectanglesTakes P E) (rectanglesTakes P (env E z)) :=
  List.rel_append (List.rel_append (List.rel_append (takes_all _) takes_scales) takes_colors) (by takesToo hk hz)

theorem rectangles_means {E : ReadEnv} {z : LayerSize} (hz : Resized k E z) (hc : ∀ c ∈ cs, Plain E.stod c) {a b : RectanglesConf}
    (h : RectanglesMeans P E cs a b) : RectanglesMeans P (env E z) cs (rectangles k a) (rectangles k b) :=
  ⟨h.known, h.data, ⟨h.scales.x, h.scales.y⟩, ⟨h.colors.colors, h.colors.colorMap⟩, h.sizeX, h.sizeY, last_big (g := (k * ·)) (by growns hz) hc h.sizeXDefault, last_big (g := (k * ·)) (by growns hz) hc h.sizeYDefault, h.color, h.loaded⟩

theorem rectangles_start (hs : State k s t) : Defaults.rectangles t = rectangles k (Defaults.rectangles s) := by
  unfold Defaults.rectangles rectangles
  rw [hs.scales]
  simp only [mul_zero]

theorem rectangles_settled (hk : k ≠ 0) (hs : State k s t) (hc : ∀ c ∈ cs, Plain P.stod c) {c : RectanglesConf}
    (h : SettledRectangles P s cs c) : SettledRectangles P t cs (rectangles k c) := by
  obtain ⟨ha, o, hm, x, y, colors, h3, h4, rfl⟩ := h
  unfold SettledRectangles Settled
  rw [env_big hs, rectangles_start hs]
  exact ⟨accepted_big (rectangles_takes hk (resized hs)) hc ha, _, rectangles_means (resized hs) hc hm, x, y, colors, h3, h4, rfl⟩

/-! ## Vectors -/

theorem vectors_takes {E : ReadEnv} {z : LayerSize} (hk : k ≠ 0) (hz : Resized k E z) :
    List.Forall₂ (TakesToo E.stod) (vectorsTakes P E) (vectorsTakes P (env E z)) :=
  List.rel_append (List.rel_append (List.rel_append (takes_all _) takes_scales) (List.rel_append takes_colors takes_sizes)) (by takesToo hk hz)

theorem vectors_means {E : ReadEnv} {z : LayerSize} (hz : Resized k E z) (hc : ∀ c ∈ cs, Plain E.stod c) {a b : VectorsConf}
    (h : VectorsMeans P E cs a b) : VectorsMeans P (env E z) cs (vectors k a) (vectors k b) :=
  ⟨h.known, h.data, ⟨h.scales.x, h.scales.y⟩, ⟨h.colors.colors, h.colors.colorMap⟩, sizes_means hc h.sizes, h.dx, h.dy, h.color, last_big (g := (k * ·)) (by growns hz) hc h.size, ⟨h.loaded.1, h.loaded.2.1, h.loaded.2.2.1, congrArg (List.map (k * ·)) h.loaded.2.2.2⟩⟩

theorem vectors_start (hs : State k s t) : Defaults.vectors t = vectors k (Defaults.vectors s) := by
  unfold Defaults.vectors vectors
  rw [pt_state hs, hs.scales]
  simp only [List.map_nil]

theorem vectors_settled (hk : k ≠ 0) (hs : State k s t) (hc : ∀ c ∈ cs, Plain P.stod c) {c : VectorsConf}
    (h : SettledVectors P s cs c) : SettledVectors P t cs (vectors k c) := by
  obtain ⟨ha, o, hm, x, y, colors, sizes, h3, h4, h5, rfl⟩ := h
  obtain rfl := no_sizes hc hm.sizes rfl h5
  unfold SettledVectors Settled
  rw [env_big hs, vectors_start hs]
  exact ⟨accepted_big (vectors_takes hk (resized hs)) hc ha, _, vectors_means (resized hs) hc hm, x, y, colors, [], h3, h4, h5, rfl⟩

/-! ## Labels -/

theorem labels_takes {E : ReadEnv} {z : LayerSize} (hk : k ≠ 0) (hz : Resized k E z) :
    List.Forall₂ (TakesToo E.stod) (labelsTakes P E) (labelsTakes P (env E z)) :=
  List.rel_append (List.rel_append (takes_all _) takes_scales) (by takesToo hk hz)

theorem labels_means {E : ReadEnv} {z : LayerSize} (hz : Resized k E z) (hc : ∀ c ∈ cs, Plain E.stod c) {a b : LabelsConf φ}
    (h : LabelsMeans P E cs a b) : LabelsMeans P (env E z) cs (labels k a) (labels k b) :=
  ⟨h.known, h.data, ⟨h.scales.x, h.scales.y⟩, h.labels, h.labelFonts, last_big (g := (k * ·)) (by growns hz) hc h.labelFontSize, h.labelColor, last_big (g := measure k) (by growns hz) hc h.labelPadding, h.loaded⟩

theorem labels_start (hs : State k s t) : Defaults.labels t = labels k (Defaults.labels s) := by
  unfold Defaults.labels labels
  rw [em_big hs, hs.scales, hs.page.fonts, ← noLength_big]

theorem labels_settled (hk : k ≠ 0) (hs : State k s t) (hc : ∀ c ∈ cs, Plain P.stod c) {c : LabelsConf φ}
    (h : SettledLabels P s cs c) : SettledLabels P t cs (labels k c) := by
  obtain ⟨ha, o, hm, x, y, h3, rfl⟩ := h
  unfold SettledLabels Settled
  rw [env_big hs, labels_start hs]
  exact ⟨accepted_big (labels_takes hk (resized hs)) hc ha, _, labels_means (resized hs) hc hm, x, y, h3, rfl⟩

/-! ## Grid -/

theorem grid_takes {E : ReadEnv} {z : LayerSize} (hk : k ≠ 0) (hz : Resized k E z) :
    List.Forall₂ (TakesToo E.stod) (gridTakes P E) (gridTakes P (env E z)) :=
  List.rel_append takes_scales (by takesToo hk hz)

theorem grid_means {E : ReadEnv} {z : LayerSize} (hz : Resized k E z) (hc : ∀ c ∈ cs, Plain E.stod c) {a b : GridConf}
    (h : GridMeans P E cs a b) : GridMeans P (env E z) cs (grid k a) (grid k b) :=
  ⟨h.known, ⟨h.scales.x, h.scales.y⟩, h.layoutX, h.layoutY, acts_big (g := stroke k) (by growns hz) hc h.stroke⟩

theorem grid_start (hs : State k s t) : Defaults.grid t = grid k (Defaults.grid s) := by
  unfold Defaults.grid grid
  rw [pt_state hs, hs.scales]
  simp [stroke, measure]

theorem grid_settled (hk : k ≠ 0) (hs : State k s t) (hc : ∀ c ∈ cs, Plain P.stod c) {c : GridConf}
    (h : SettledGrid P s cs c) : SettledGrid P t cs (grid k c) := by
  obtain ⟨ha, o, hm, rfl⟩ := h
  unfold SettledGrid Settled
  rw [env_big hs, grid_start hs]
  exact ⟨accepted_big (grid_takes hk (resized hs)) hc ha, _, grid_means (resized hs) hc hm, rfl⟩

/-! ## Background -/

theorem background_takes {E : ReadEnv} {z : LayerSize} (hk : k ≠ 0) (hz : Resized k E z) :
    List.Forall₂ (TakesToo E.stod) (backgroundTakes E) (backgroundTakes (env E z)) :=
  by takesToo hk hz

theorem background_means {E : ReadEnv} {z : LayerSize} (hz : Resized k E z) (hc : ∀ c ∈ cs, Plain E.stod c) {a b : BackgroundConf}
    (h : BackgroundMeans E cs a b) : BackgroundMeans (env E z) cs (background k a) (background k b) :=
  ⟨h.known, acts_big (g := fill k) (by growns hz) hc h.fill, acts_big (g := stroke k) (by growns hz) hc h.stroke⟩

theorem background_start (hs : State k s t) : Defaults.background t = background k (Defaults.background s) := by
  unfold Defaults.background background
  rw [pt_state hs, solid_big]; rfl

theorem background_settled (hk : k ≠ 0) (hs : State k s t) (hc : ∀ c ∈ cs, Plain P.stod c) {c : BackgroundConf}
    (h : SettledBackground P s cs c) : SettledBackground P t cs (background k c) := by
  obtain ⟨ha, o, hm, rfl⟩ := h
  unfold SettledBackground Settled
  rw [env_big hs, background_start hs]
  exact ⟨accepted_big (background_takes hk (resized hs)) hc ha, _, background_means (resized hs) hc hm, rfl⟩

end
end Clip.Enlarge
