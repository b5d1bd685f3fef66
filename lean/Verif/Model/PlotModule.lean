import Verif.Model.Legend
/-!
# Model of the plot module, `src/plot/plotgen.cc`
-/
namespace Clip
noncomputable section

variable {φ : Type}

/-- The scale options reach the scales of the plot. -/
def plotScaleOpts (P : PlotEnv φ) (E : ReadEnv) : List (String × Handler (PlotState φ) Fail) :=
  liftOpts (·.scales) (fun s v => { s with scales := v }) (scaleOpts P E)

/-- plotgen.cc:43-73 `plot_prepare`, the table. -/
def prepareTable (P : PlotEnv φ) (E : ReadEnv) : List (String × Handler (PlotState φ) Fail) := plotScaleOpts P E ++ [
  ("areas", areasAutorange P),
  ("bars", barsAutorange P),
  ("errorbars", errorbarsAutorange P),
  ("labels", labelsAutorange P),
  ("lines", linesAutorange P),
  ("points", pointsAutorange P),
  ("polygons", polygonsAutorange P),
  ("rectangles", rectanglesAutorange P),
  ("vectors", vectorsAutorange P)]

def onPlotMargins (h : Handler (ℝ × ℝ × ℝ × ℝ) Fail) : Handler (PlotState φ) Fail :=
  onPart (·.margins) (fun s v => { s with margins := v }) h

/-- plotgen.cc:75-115 `plot_draw`, the table. -/
def plotDrawTable (P : PlotEnv φ) (E : ReadEnv) : List (String × Handler (PlotState φ) Fail) := [
  ("margin", onPlotMargins (atAll (sizeVar E))),
  ("margin-top", onPlotMargins (at1 (sizeVar E))),
  ("margin-right", onPlotMargins (at2 (sizeVar E))),
  ("margin-bottom", onPlotMargins (at3 (sizeVar E))),
  ("margin-left", onPlotMargins (at4 (sizeVar E))),
  ("axes", axesCmd P),
  ("axis", axisCmd P),
  ("grid", gridCmd P),
  ("background", backgroundCmd P),
  ("legend", legendCmd P),
  ("areas", areasCmd P),
  ("bars", barsCmd P),
  ("errorbars", errorbarsCmd P),
  ("labels", labelsCmd P),
  ("lines", linesCmd P),
  ("points", pointsCmd P),
  ("polygons", polygonsCmd P),
  ("rectangles", rectanglesCmd P),
  ("vectors", vectorsCmd P)]

/-- plotgen.cc:43-73 `plot_prepare`: unknown commands are skipped. -/
def plotPrepare (P : PlotEnv φ) (cmds : List Expr) (s : PlotState φ) : PlotState φ × Option Fail :=
  walkSkip (optTable (prepareTable P (s.env P))) cmds s

/-- plotgen.cc:75-115 `plot_draw`: unknown commands are skipped. -/
def plotDraw (P : PlotEnv φ) (cmds : List Expr) (s : PlotState φ) : PlotState φ × Option Fail :=
  walkSkip (optTable (plotDrawTable P (s.env P))) cmds s

/-- plotgen.cc:117-133 `plot_eval`, with the state of the plot. -/
def plotRun (P : PlotEnv φ) (cmds : List Expr) (s : PlotState φ) : PlotState φ × Option Fail :=
  match plotPrepare P cmds s with
  | (s', some f) => (s', some f)
  | (s', none) => plotDraw P cmds s'

/-- plotgen.cc:117-133 `plot_eval`. -/
def plotModule (P : PlotEnv φ) (cmds : List Expr) (L : Layer φ) : Layer φ × Option Fail :=
  let r := plotRun P cmds { layer := L }
  (r.1.layer, r.2)

/-- eval.cc:94-106 `eval` with both modules. -/
def evalAll (P : PlotEnv φ) (L : Layer φ) (text : Str) : Option (Layer φ) :=
  evalDocument P.text P.stod (plotModule P) L text

end
end Clip
