import Verif.Lemmas.OptionArgs
set_option linter.unusedSimpArgs false
set_option linter.unusedTactic false
/-!
# C90: which options the plot elements accept
-/
namespace Clip
open Commands Settings Pictures Drawing Options
variable {φ : Type} {P : PlotEnv φ} {E : ReadEnv}

macro "acc_leaf" : tactic => `(tactic| first
  | exact acc_size | exact acc_number | exact acc_measure | exact acc_texts | exact acc_data | exact acc_lengths
  | exact acc_polys | exact acc_color (by assumption) | exact acc_strokeColor (by assumption) | exact acc_strokeWidth
  | exact acc_strokeStyle | exact acc_fillStyle (by assumption) | exact acc_fillColor (by assumption) | exact acc_limits
  | exact acc_minimum | exact acc_maximum | exact acc_pad | exact acc_scale | exact acc_font | exact acc_text
  | exact acc_marker | exact acc_markers | exact acc_placement | exact acc_colorMap | exact acc_sizeMap
  | exact acc_direction | exact acc_any)

macro "acc_opt" : tactic => `(tactic| first
  | acc_leaf
  | exact accepts_part (by acc_leaf)
  | exact accepts_cons (accepts_part (by acc_leaf)) (accepts_one (accepts_part (by acc_leaf)))
  | exact accepts_cons (accepts_part (by acc_leaf)) (accepts_cons (accepts_part (by acc_leaf))
      (accepts_one (accepts_part (by acc_leaf)))))

macro "acc_list" : tactic => `(tactic| repeat' (first | exact match_nil | refine match_cons (by acc_opt) ?_))

theorem match_data : Match dataOpts takesData := by unfold dataOpts takesData; acc_list
theorem match_limits : Match (limitOpts P E) (takesLimits P E) := by unfold limitOpts takesLimits; acc_list
theorem match_scales : Match (scaleOpts P E) (takesScales P E) := by
  unfold scaleOpts takesScales; exact match_append match_limits (by acc_list)
theorem match_colors : Match (colorOpts P E) (takesColors P E) := by unfold colorOpts takesColors; acc_list
theorem match_sizes : Match (sizeOpts P E) (takesSizes P E) := by unfold sizeOpts takesSizes; acc_list

theorem lines_accepts (hp : E.palette ≠ []) (cmds : List Expr) (a : LinesConf φ) :
    (∃ b, Executed (optTable (linesOpts P E)) cmds a b) ↔ Acceptable (linesTakes P E) cmds := by
  refine accepted_iff ?_ ?_ cmds a
  · unfold linesOpts linesTakes
    exact match_append (match_append (match_lift match_data) (match_lift match_scales)) (by acc_list)
  · simp [linesTakes, takesData, takesScales, takesLimits, takesColors, takesSizes]

theorem points_accepts (hp : E.palette ≠ []) (cmds : List Expr) (a : PointsConf φ) :
    (∃ b, Executed (optTable (pointsOpts P E)) cmds a b) ↔ Acceptable (pointsTakes P E) cmds := by
  refine accepted_iff ?_ ?_ cmds a
  · unfold pointsOpts pointsTakes
    exact match_append (match_append (match_append (match_lift match_data) (match_lift match_scales)) (match_lift (match_append match_colors match_sizes))) (by acc_list)
  · simp [pointsTakes, takesData, takesScales, takesLimits, takesColors, takesSizes]

theorem bars_accepts (hp : E.palette ≠ []) (cmds : List Expr) (a : BarsConf φ) :
    (∃ b, Executed (optTable (barsOpts P E)) cmds a b) ↔ Acceptable (barsTakes P E) cmds := by
  refine accepted_iff ?_ ?_ cmds a
  · unfold barsOpts barsTakes
    exact match_append (match_lift match_scales) (by acc_list)
  · simp [barsTakes, takesData, takesScales, takesLimits, takesColors, takesSizes]

theorem areas_accepts (hp : E.palette ≠ []) (cmds : List Expr) (a : AreasConf) :
    (∃ b, Executed (optTable (areasOpts P E)) cmds a b) ↔ Acceptable (areasTakes P E) cmds := by
  refine accepted_iff ?_ ?_ cmds a
  · unfold areasOpts areasTakes
    exact match_append (match_append (match_lift match_data) (match_lift match_scales)) (by acc_list)
  · simp [areasTakes, takesData, takesScales, takesLimits, takesColors, takesSizes]

theorem errorbars_accepts (hp : E.palette ≠ []) (cmds : List Expr) (a : ErrorbarsConf) :
    (∃ b, Executed (optTable (errorbarsOpts P E)) cmds a b) ↔ Acceptable (errorbarsTakes P E) cmds := by
  refine accepted_iff ?_ ?_ cmds a
  · unfold errorbarsOpts errorbarsTakes
    exact match_append (match_append (match_lift match_scales) (match_lift match_colors)) (by acc_list)
  · simp [errorbarsTakes, takesData, takesScales, takesLimits, takesColors, takesSizes]

theorem rectangles_accepts (hp : E.palette ≠ []) (cmds : List Expr) (a : RectanglesConf) :
    (∃ b, Executed (optTable (rectanglesOpts P E)) cmds a b) ↔ Acceptable (rectanglesTakes P E) cmds := by
  refine accepted_iff ?_ ?_ cmds a
  · unfold rectanglesOpts rectanglesTakes
    exact match_append (match_append (match_append (match_lift match_data) (match_lift match_scales)) (match_lift match_colors)) (by acc_list)
  · simp [rectanglesTakes, takesData, takesScales, takesLimits, takesColors, takesSizes]

theorem vectors_accepts (hp : E.palette ≠ []) (cmds : List Expr) (a : VectorsConf) :
    (∃ b, Executed (optTable (vectorsOpts P E)) cmds a b) ↔ Acceptable (vectorsTakes P E) cmds := by
  refine accepted_iff ?_ ?_ cmds a
  · unfold vectorsOpts vectorsTakes
    exact match_append (match_append (match_append (match_lift match_data) (match_lift match_scales)) (match_lift (match_append match_colors match_sizes))) (by acc_list)
  · simp [vectorsTakes, takesData, takesScales, takesLimits, takesColors, takesSizes]

theorem labels_accepts (hp : E.palette ≠ []) (cmds : List Expr) (a : LabelsConf φ) :
    (∃ b, Executed (optTable (labelsOpts P E)) cmds a b) ↔ Acceptable (labelsTakes P E) cmds := by
  refine accepted_iff ?_ ?_ cmds a
  · unfold labelsOpts labelsTakes
    exact match_append (match_append (match_lift match_data) (match_lift match_scales)) (by acc_list)
  · simp [labelsTakes, takesData, takesScales, takesLimits, takesColors, takesSizes]

theorem polygons_accepts (hp : E.palette ≠ []) (cmds : List Expr) (a : PolygonsConf) :
    (∃ b, Executed (optTable (polygonsOpts P E)) cmds a b) ↔ Acceptable (polygonsTakes P E) cmds := by
  refine accepted_iff ?_ ?_ cmds a
  · unfold polygonsOpts polygonsTakes
    exact match_append (match_lift match_limits) (by acc_list)
  · simp [polygonsTakes, takesData, takesScales, takesLimits, takesColors, takesSizes]

theorem grid_accepts (hp : E.palette ≠ []) (cmds : List Expr) (a : GridConf) :
    (∃ b, Executed (optTable (gridOpts P E)) cmds a b) ↔ Acceptable (gridTakes P E) cmds := by
  refine accepted_iff ?_ ?_ cmds a
  · unfold gridOpts gridTakes
    exact match_append (match_lift match_scales) (by acc_list)
  · simp [gridTakes, takesData, takesScales, takesLimits, takesColors, takesSizes]

theorem background_accepts (hp : E.palette ≠ []) (cmds : List Expr) (a : BackgroundConf) :
    (∃ b, Executed (optTable (backgroundOpts E)) cmds a b) ↔ Acceptable (backgroundTakes E) cmds := by
  refine accepted_iff ?_ ?_ cmds a
  · unfold backgroundOpts backgroundTakes
    acc_list
  · simp [backgroundTakes, takesData, takesScales, takesLimits, takesColors, takesSizes]

end Clip
