import Verif.Props.Sexpr
import Verif.Props.Plist
import Verif.Props.Eval
import Verif.Props.Csv
import Verif.Props.Data
import Verif.Props.Utf8
import Verif.Props.Time
import Verif.Props.Iso
import Verif.Props.Json
import Verif.Props.GeoData
import Verif.Props.StringUtil
import Verif.Props.Scale
import Verif.Props.Ticks
import Verif.Props.VMath
import Verif.Props.GLayout
import Verif.Props.Intersect
import Verif.Props.Hatch
import Verif.Props.Plots
import Verif.Props.PlotElements
import Verif.Props.Marker
import Verif.Props.Units
import Verif.Props.Format
import Verif.Props.Color
import Verif.Props.TextLayout
import Verif.Props.Svg
import Verif.Props.Buffer
import Verif.Props.Image
import Verif.Props.Flags
import Verif.Props.Cli
import Verif.Props.Inspect
import Verif.Props.ParamWalk
import Verif.Props.ExpSteps
import Verif.Props.JsonRefuse
import Verif.Props.Style
import Verif.Props.StyleOld
import Verif.Props.Draw
import Verif.Props.DrawText
import Verif.Props.DrawModule
import Verif.Props.Document
import Verif.Props.EndToEnd
import Verif.Model.ScaleConf
import Verif.Model.PlotConf
import Verif.Model.PlotModule
import Verif.Props.PlotFrame
import Verif.Props.Options
import Verif.Props.OptionArgs
import Verif.Props.OptionsMean
import Verif.Props.PlotRefuse
import Verif.Props.LimitsDraw
import Verif.Props.AxesMean
import Verif.Props.LegendOptions
import Verif.Spec.AxisDraw
import Verif.Props.AxisDraw
import Verif.Spec.AxisValues
import Verif.Props.AxisValues
import Verif.Spec.Placement
import Verif.Props.Placement
import Verif.Props.ScaleWords
import Verif.Spec.Defaults
import Verif.Props.Defaults
import Verif.Spec.ElementPictures
import Verif.Props.ElementPictures
import Verif.Props.ElementPictures2
import Verif.Props.ElementPicturesEx
import Verif.Props.LegendFlow
import Verif.Props.LegendPicture
import Verif.Props.LegendBoxes
import Verif.Props.LegendEx
import Verif.Lemmas.Determined
import Verif.Spec.WholePlot
import Verif.Lemmas.Settled
import Verif.Lemmas.Fitted
import Verif.Lemmas.PlistText
import Verif.Spec.WholeDocument
import Verif.Props.WholeElements
import Verif.Props.WholePlot
import Verif.Props.WholeDocument
import Verif.Props.WholePicture
import Verif.Model.Program
import Verif.Spec.Program
import Verif.Props.Program
import Verif.Model.Glyph
import Verif.Spec.Glyph
import Verif.Props.Glyph
import Verif.Model.Api
import Verif.Props.Api
import Verif.Model.HatchExport
import Verif.Props.HatchEnds
import Verif.Props.HatchExport
import Verif.Spec.Documented
import Verif.Props.Documented
import Verif.Lemmas.Rearrange
import Verif.Props.Rearrange
import Verif.Spec.DataUnits

import Verif.Props.DataUnits
import Verif.Props.PlotUnits
import Verif.Props.PlotUnitsY
import Verif.Spec.Arguments
import Verif.Props.Arguments
import Verif.Spec.FixedLimits
import Verif.Lemmas.FixedLimits
import Verif.Props.FixedLimits
import Verif.Model.Raster
import Verif.Spec.Raster
import Verif.Props.Raster
import Verif.Lemmas.Quarters
import Verif.Props.DocumentedSettings
import Verif.Model.OptionCell
import Verif.Spec.OptionCell
import Verif.Props.OptionCell
import Verif.Model.Files
import Verif.Spec.Files
import Verif.Props.Files
import Verif.Model.Metric
import Verif.Props.Metric
import Verif.Model.Streams
import Verif.Spec.Streams
import Verif.Props.Streams
import Verif.Props.DocumentedValues
import Verif.Spec.Reorder
import Verif.Lemmas.Reorder
import Verif.Lemmas.ReorderParts
import Verif.Lemmas.ReorderElements
import Verif.Lemmas.ReorderAxes
import Verif.Props.Reorder
import Verif.Spec.Writing
import Verif.Props.Writing
import Verif.Spec.AxisRoom
import Verif.Props.AxisRoom
import Verif.Model.Handles
import Verif.Spec.Handles
import Verif.Props.Handles
import Verif.Props.Dates
import Verif.Props.Messages
import Verif.Props.Dirs
import Verif.Props.Sources
import Verif.Props.ReadDates
import Verif.Props.Random
import Verif.Props.Png
import Verif.Props.Enlarge
import Verif.Model.FileNames
import Verif.Props.FileNames
import Verif.Props.EnlargeDraw
