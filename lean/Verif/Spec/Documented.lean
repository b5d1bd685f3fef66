/-!
# The options the manual lists (`/repo/doc/plot/*.yaml`)
-/
namespace Clip.Documented

/-- doc/plot/types/scale_args.yaml -/
def scales : List String := ["scale-x", "scale-y", "limit-x", "limit-x-min", "limit-x-max", "limit-y", "limit-y-min",
  "limit-y-max"]

/-- doc/plot/lines.yaml, with the options of scales -/
def lines : List String := ["data", "data-format", "data-x", "data-y", "color", "stroke-style", "stroke-width",
  "stroke-color", "marker-shape", "marker-size", "marker-color", "labels", "label-font-size", "label-color",
  "label-padding"]

/-- doc/plot/points.yaml, with the options of scales -/
def points : List String := ["data", "data-format", "data-x", "data-y", "shape", "shapes", "size", "sizes",
  "size-map", "color", "colors", "color-map", "labels", "label-font-size", "label-color", "label-padding"]

/-- doc/plot/bars.yaml, with the options of scales -/
def bars : List String := ["data-x", "data-x-high", "data-x-low", "data-y", "data-y-high", "data-y-low", "direction",
  "color", "width", "offset", "stroke-color", "stroke-width", "stroke-style", "labels", "label-font-size",
  "label-color", "label-padding"]

/-- doc/plot/areas.yaml, with the options of scales -/
def areas : List String := ["data", "data-format", "data-x", "data-y", "direction", "color", "stroke-color",
  "stroke-width", "stroke-style", "stroke-high-color", "stroke-high-width", "stroke-high-style", "stroke-low-color",
  "stroke-low-width", "stroke-low-style"]

/-- doc/plot/errorbars.yaml, with the options of scales -/
def errorbars : List String := ["data-x", "data-x-high", "data-x-low", "data-y", "data-y-high", "data-y-low", "width",
  "color", "colors", "color-map", "stroke-color", "stroke-width"]

/-- doc/plot/rectangles.yaml, with the options of scales -/
def rectangles : List String := ["data", "data-format", "data-x", "data-y", "size", "sizes", "size-x", "sizes-x",
  "size-y", "sizes-y", "color", "colors", "color-map"]

/-- doc/plot/vectors.yaml, with the options of scales -/
def vectors : List String := ["data", "data-format", "data-x", "data-y", "data-dx", "data-dy", "size", "sizes",
  "size-map", "color", "colors", "color-map"]

/-- doc/plot/labels.yaml, with the options of scales -/
def labels : List String := ["data", "data-format", "data-x", "data-y", "labels", "label-font-size", "label-color",
  "label-padding"]

/-- doc/plot/grid.yaml, with the options of scales -/
def grid : List String := ["tick-placement-x", "tick-placement-y", "stroke-style", "stroke-width", "stroke-color",
  "color"]

/-- doc/plot/axis.yaml -/
def axis : List String := ["align", "scale", "limit", "limit-min", "limit-max", "label-placement", "label-format",
  "label-attach", "label-offset", "label-padding", "label-rotate", "label-color", "label-font", "label-font-size",
  "tick-placement", "tick-offset", "tick-length", "title", "title-offset", "title-padding", "title-rotate",
  "title-color", "title-font", "title-font-size", "border-width", "border-color", "border-syle"]

/-- doc/plot/axes.yaml -/
def axes : List String := ["position", "scale", "scale-x", "scale-y", "scale-top", "scale-right", "scale-bottom",
  "scale-left", "limit-x", "limit-y", "limit-top", "limit-right", "limit-bottom", "limit-left", "label-placement-x",
  "label-placement-y", "label-placement-top", "label-placement-right", "label-placement-bottom",
  "label-placement-left", "label-format", "label-format-x", "label-format-y", "label-format-top",
  "label-format-right", "label-format-bottom", "label-format-left", "label-attach-top", "label-attach-right",
  "label-attach-bottom", "label-attach-left", "label-offset-top", "label-offset-right", "label-offset-bottom",
  "label-offset-left", "label-padding-top", "label-padding-right", "label-padding-bottom", "label-padding-left",
  "label-rotate-top", "label-rotate-right", "label-rotate-bottom", "label-rotate-left", "label-color",
  "label-color-x", "label-color-y", "label-color-top", "label-color-right", "label-color-bottom", "label-color-left",
  "label-font-size", "label-font-size-x", "label-font-size-y", "label-font-size-top", "label-font-size-right",
  "label-font-size-bottom", "label-font-size-left", "tick-placement-x", "tick-placement-y", "tick-placement-top",
  "tick-placement-right", "tick-placement-bottom", "tick-placement-left", "tick-offset-top", "tick-offset-right",
  "tick-offset-bottom", "tick-offset-left", "tick-length-top", "tick-length-right", "tick-length-bottom",
  "tick-length-left", "title-x", "title-y", "title-top", "title-right", "title-bottom", "title-left",
  "title-offset-top", "title-offset-right", "title-offset-bottom", "title-offset-left", "title-padding-top",
  "title-padding-right", "title-padding-bottom", "title-padding-left", "title-rotate-top", "title-rotate-right",
  "title-rotate-bottom", "title-rotate-left", "title-color", "title-color-top", "title-color-right",
  "title-color-bottom", "title-color-left", "title-font", "title-font-top", "title-font-right", "title-font-bottom",
  "title-font-left", "title-font-size", "title-font-size-top", "title-font-size-right", "title-font-size-bottom",
  "title-font-size-left", "border-width", "border-width-top", "border-width-right", "border-width-bottom",
  "border-width-left", "border-color", "border-color-top", "border-color-right", "border-color-bottom",
  "border-color-left", "border-syle", "border-syle-top", "border-syle-right", "border-syle-bottom",
  "border-syle-left"]

/-- doc/plot/legend.yaml (the options of the box are not written out there) -/
def legend : List String := ["position", "item", "item-flow", "item-column-padding", "item-row-padding", "extra"]

/-- doc/document_setup.md: the options of documents, to be given as `(set <option> <value>)` -/
def document : List String := ["width", "height", "dpi", "font", "font-defaults", "font-size", "background-color",
  "foreground-color", "margin-top", "margin-right", "margin-bottom", "margin-left", "color-palette", "text-language",
  "text-script"]

/-- doc/command_line.md: the options of the command line program, after `--` -/
def commandLine : List String := ["in", "out", "stdin", "stdout", "format", "font-defaults", "font-load", "debug", "help",
  "version"]

end Clip.Documented
