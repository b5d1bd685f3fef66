import Verif.Spec.Defaults
import Verif.Props.OptionsMean
import Verif.Props.AxesMean
import Verif.Props.LegendOptions
set_option linter.unusedSimpArgs false
/-!
# C93: settings that no option names have their documented defaults
-/
namespace Clip
open Drawing Options
variable {φ : Type}

theorem Defaults.pt_eq (s : PlotState φ) (v : ℝ) : s.pt v = Defaults.pt s v := by
  simp [PlotState.pt, Defaults.pt, unitFromPt]

theorem Defaults.em_eq (s : PlotState φ) : s.fontSize = Defaults.em s := by
  unfold PlotState.fontSize Defaults.em layerSize
  cases h : s.layer.size.fontSize.unit <;> simp [unitFromPt, unitFromMm, unitFromPx]

theorem Defaults.black_eq : Color.black = Defaults.black := rfl

theorem Defaults.solid_eq (w : ℝ) : { StrokeState.default with width := w } = Defaults.solid w := rfl

theorem Defaults.lines_eq (s : PlotState φ) : linesDefault s = Defaults.lines s := by
  unfold linesDefault; rw [Defaults.solid_eq, Defaults.pt_eq, Defaults.em_eq]; rfl

theorem Defaults.points_eq (s : PlotState φ) : pointsDefault s = Defaults.points s := by
  unfold pointsDefault; rw [Defaults.pt_eq, Defaults.em_eq]; rfl

theorem Defaults.bars_eq (s : PlotState φ) : barsDefault s = Defaults.bars s := by
  unfold barsDefault; rw [Defaults.em_eq]; rfl

theorem Defaults.areas_eq (s : PlotState φ) : areasDefault s = Defaults.areas s := rfl

theorem Defaults.errorbars_eq (s : PlotState φ) : errorbarsDefault s = Defaults.errorbars s := by
  unfold errorbarsDefault; rw [Defaults.pt_eq, Defaults.pt_eq]; rfl

theorem Defaults.rectangles_eq (s : PlotState φ) : rectanglesDefault s = Defaults.rectangles s := rfl

theorem Defaults.vectors_eq (s : PlotState φ) : vectorsDefault s = Defaults.vectors s := by
  unfold vectorsDefault; rw [Defaults.pt_eq]; rfl

theorem Defaults.labels_eq (s : PlotState φ) : labelsDefault s = Defaults.labels s := by
  unfold labelsDefault; rw [Defaults.em_eq]; rfl

theorem Defaults.polygons_eq (s : PlotState φ) : polygonsDefault s = Defaults.polygons s := by
  unfold polygonsDefault; rw [Defaults.pt_eq]; rfl

theorem Defaults.grid_eq (s : PlotState φ) : gridDefault s = Defaults.grid s := by
  unfold gridDefault; rw [Defaults.pt_eq]; rfl

theorem Defaults.item_eq (s : PlotState φ) : legendItemDefault s = Defaults.legendItem s := by
  unfold legendItemDefault Defaults.legendItem
  rw [Defaults.em_eq]
  congr 1
  · unfold unitFromEm; ring
  · unfold unitFromEm; ring
  · ring

theorem Defaults.legend_eq (s : PlotState φ) : legendDefault s = Defaults.legend s := by
  have h : ∀ v, unitFromEm v s.fontSize = v * Defaults.em s := fun v => by
    rw [Defaults.em_eq]; unfold unitFromEm; ring
  unfold legendDefault Defaults.legend
  simp only [h, one_mul]
  rfl

theorem Defaults.axis_eq (s : PlotState φ) (al : AxisAlign) (sc : Scale) :
    axisPreset { axisNew s with align := al, scale := sc } = Defaults.axis s al sc := by
  unfold axisPreset axisNew Defaults.axis
  rw [Defaults.em_eq, Defaults.pt_eq]
  cases al <;> rfl

theorem Defaults.axes_eq (s : PlotState φ) : axesDefault s = Defaults.axes s := by
  have h : unitFromEm 1 s.fontSize = Defaults.em s := by
    rw [Defaults.em_eq]; unfold unitFromEm; ring
  unfold axesDefault Defaults.axes
  rw [h]
  simp only [Defaults.axis_eq]

section
variable (P : PlotEnv φ) (s : PlotState φ) (hp : (s.env P).palette ≠ []) (args : List Expr)
include hp

/-- C93: the settings of `lines` are the defaults, changed by the options. -/
theorem C93_lines : Configured (linesConfigure P s args) (Acceptable (linesTakes P (s.env P)) args)
    (LinesMeans P (s.env P) args (Defaults.lines s)) (linesLoads P) := by
  rw [← Defaults.lines_eq]; exact C90_lines P s hp args

theorem C93_points : Configured (pointsConfigure P s args) (Acceptable (pointsTakes P (s.env P)) args)
    (PointsMeans P (s.env P) args (Defaults.points s)) (pointsLoads P) := by
  rw [← Defaults.points_eq]; exact C90_points P s hp args

theorem C93_bars : Configured (barsConfigure P s args) (Acceptable (barsTakes P (s.env P)) args)
    (BarsMeans P (s.env P) args (Defaults.bars s)) barsLoads := by
  rw [← Defaults.bars_eq]; exact C90_bars P s hp args

theorem C93_areas : Configured (areasConfigure P s args) (Acceptable (areasTakes P (s.env P)) args)
    (AreasMeans P (s.env P) args (Defaults.areas s)) (areasLoads P) := by
  rw [← Defaults.areas_eq]; exact C90_areas P s hp args

theorem C93_errorbars : Configured (errorbarsConfigure P s args) (Acceptable (errorbarsTakes P (s.env P)) args)
    (ErrorbarsMeans P (s.env P) args (Defaults.errorbars s)) (errorbarsLoads P) := by
  rw [← Defaults.errorbars_eq]; exact C90_errorbars P s hp args

theorem C93_rectangles : Configured (rectanglesConfigure P s args) (Acceptable (rectanglesTakes P (s.env P)) args)
    (RectanglesMeans P (s.env P) args (Defaults.rectangles s)) (rectanglesLoads P) := by
  rw [← Defaults.rectangles_eq]; exact C90_rectangles P s hp args

theorem C93_vectors : Configured (vectorsConfigure P s args) (Acceptable (vectorsTakes P (s.env P)) args)
    (VectorsMeans P (s.env P) args (Defaults.vectors s)) (vectorsLoads P) := by
  rw [← Defaults.vectors_eq]; exact C90_vectors P s hp args

theorem C93_labels : Configured (labelsConfigure P s args) (Acceptable (labelsTakes P (s.env P)) args)
    (LabelsMeans P (s.env P) args (Defaults.labels s)) (labelsLoads P) := by
  rw [← Defaults.labels_eq]; exact C90_labels P s hp args

theorem C93_polygons : Configured (polygonsConfigure P s args) (Acceptable (polygonsTakes P (s.env P)) args)
    (PolygonsMeans P (s.env P) args (Defaults.polygons s)) (fun o c => c = { o with scales := fitPolys o.polys o.scales }) := by
  rw [← Defaults.polygons_eq]; exact C90_polygons P s hp args

theorem C93_grid : Configured (gridConfigure P s args) (Acceptable (gridTakes P (s.env P)) args)
    (GridMeans P (s.env P) args (Defaults.grid s)) (fun o c => c = o) := by
  rw [← Defaults.grid_eq]; exact C90_grid P s hp args

theorem C93_background : Configured (backgroundConfigure P s args) (Acceptable (backgroundTakes (s.env P)) args)
    (BackgroundMeans (s.env P) args (Defaults.background s)) (fun o c => c = o) := by
  have h : Defaults.background s = ⟨.default, { StrokeState.default with width := s.pt 1 }⟩ := by
    rw [Defaults.pt_eq]; rfl
  rw [h]; exact C90_background P s hp args

theorem C93_legend_item : Configured (legendItemConfigure P s args) (Acceptable (itemTakes P (s.env P)) args)
    (ItemMeans P (s.env P) args (Defaults.legendItem s)) (fun o c => c = o) := by
  rw [← Defaults.item_eq]; exact C90_legend_item P s hp args

theorem C93_legend : Configured (legendConfigure P s args) (Acceptable (legendTakes P (s.env P)) args)
    (LegendMeans P (s.env P) (Defaults.legendItem s) args (Defaults.legend s)) (fun o c => c = o) := by
  rw [← Defaults.item_eq, ← Defaults.legend_eq]; exact C90_legend P s hp args

theorem C93_axes : Configured (axesConfigure P s args) (∀ c ∈ args, axesTakes P (s.env P) c)
    (AxesMeans P (s.env P) args (Defaults.axes s)) (fun o c => c = o) := by
  rw [← Defaults.axes_eq]; exact C90_axes P s hp args

/-- C93: `axis` has its own scale without limits, not that of the plot. -/
theorem C93_axis : ∀ b, axisConfigure P s args = .ok b → ∃ al, LastOf (IsOneOf alignWords) ["align"] args .x al ∧
    AxisMeans P (s.env P) args (Defaults.axis s al Defaults.freshScale) b := by
  intro b hb
  obtain ⟨al, h1, h2⟩ := (C90_axis_partial P s hp args).2 b hb
  refine ⟨al, h1, ?_⟩
  rw [← Defaults.axis_eq]
  exact h2

end

/-- Lines without any option but data are black and 1.5pt wide: 2 pixels at 96dpi. -/
example (s : PlotState φ) (h : s.layer.size.dpi = 96) : (Defaults.lines s).stroke = ⟨2, ⟨0, 0, 0, 1⟩, false, ⟨.unit, 0⟩, []⟩ := by
  simp only [Defaults.lines, Defaults.solid, Defaults.pt, Defaults.black, h]
  norm_num

/-- `grid` without options is accepted, with the defaults. -/
example (P : PlotEnv φ) (s : PlotState φ) : gridConfigure P s [] = .ok (Defaults.grid s) := by
  rw [← Defaults.grid_eq]; rfl

end Clip
