import Verif.Spec.AxisOptions
import Verif.Spec.Pictures
import Verif.Spec.WholeDocument
import Verif.Spec.CsvSyntax
/-!
# The same value, written in another way (specification)

Data can be listed in the document or come from a file; a colour has several notations; a length can be given in several
units.
-/
namespace Clip.Options
open Settings Drawing DataSpec
noncomputable section
variable {φ : Type} (P : PlotEnv φ) (E : ReadEnv)

/-- The first argument has these values: they are listed, or they are a column of a CSV file that can be read. -/
inductive Source : List Expr → List Str → Prop
  | listed {k ws rest vs} : IsWord k "list" → List.Forall₂ (fun e v => e = .literal v ∨ e = .value v) ws vs →
      Source (.list (k :: ws) :: rest) vs
  | column {k p c rest path name text headers rows idx vs} : IsWord k "csv" → (p = .literal path ∨ p = .value path) →
      (c = .literal name ∨ c = .value name) → P.readFile path = some text →
      CsvSyntax.Dialect.Table (headers :: rows) text → IsColumn headers name idx →
      rows.map (·[idx]?) = vs.map some → Source (.list [k, p, c] :: rest) vs

/-- The arguments are these values, or the first argument has them. -/
def Given (args : List Expr) (vs : List Str) : Prop :=
  Source P args vs ∨ List.Forall₂ (fun e v => e = .literal v ∨ e = .value v) args vs

/-- Options for data. -/
def sourceOptions : List String := ["data-x", "data-y"]

/-- Options for data that need not be in a list. -/
def givenOptions : List String := ["data-x-low", "data-x-high", "data-y-low", "data-y-high", "data-size-x", "data-size-y",
  "data-size", "data-dx", "data-dy"]

/-- Options for one colour. -/
def colorOptions : List String := ["color", "stroke-color", "marker-color", "label-color", "stroke-high-color",
  "stroke-low-color", "title-color", "border-color", "border-top-color", "border-right-color", "border-bottom-color",
  "border-left-color", "background"]

/-- Options for one length. -/
def sizeOptions : List String := ["stroke-width", "marker-size", "label-font-size", "size", "size-x", "size-y", "width", "offset",
  "stroke-high-width", "stroke-low-width", "title-font-size", "font-size", "border-width",
  "border-top-width", "border-right-width", "border-bottom-width", "border-left-width", "item-row-padding", "item-column-padding",
  "padding", "padding-top", "padding-right", "padding-bottom", "padding-left", "margin", "margin-top", "margin-right",
  "margin-bottom", "margin-left", "label-margin", "marker-margin"]

/-- Two options that are the same but for the notation of their value. -/
inductive SameOption : Expr → Expr → Prop
  | same (c) : SameOption c c
  | source {n c c' vs} : n ∈ sourceOptions → nameOf c = some (String.toList n) → nameOf c' = some (String.toList n) →
      Source P (argsOf c) vs → Source P (argsOf c') vs → SameOption c c'
  | given {n c c' vs} : n ∈ givenOptions → nameOf c = some (String.toList n) → nameOf c' = some (String.toList n) →
      Given P (argsOf c) vs → Given P (argsOf c') vs → SameOption c c'
  | color {n c c' k} : n ∈ colorOptions → nameOf c = some (String.toList n) → nameOf c' = some (String.toList n) →
      IsColor E (argsOf c) k → IsColor E (argsOf c') k → SameOption c c'
  | size {n c c' v} : n ∈ sizeOptions → nameOf c = some (String.toList n) → nameOf c' = some (String.toList n) →
      IsSize E (argsOf c) v → IsSize E (argsOf c') v → SameOption c c'

/-- The elements of a plot that are considered. -/
def plainElements : List String := ["lines", "points", "bars", "areas", "errorbars", "rectangles", "vectors", "labels",
  "polygons", "grid", "background", "axis"]

/-- Two options of `axes` that are the same but for the notation of their value: colours and sizes for some of the axes, and
margins. -/
inductive SameAxesOption : Expr → Expr → Prop
  | same (c) : SameAxesOption c c
  | color {n base sides c c' k} : nameOf c = some n → nameOf c' = some n → splitName n = some (base, sides) → base ∈ colorOptions →
      IsColor E (argsOf c) k → IsColor E (argsOf c') k → SameAxesOption c c'
  | size {n base sides c c' v} : nameOf c = some n → nameOf c' = some n → splitName n = some (base, sides) → base ∈ sizeOptions →
      IsSize E (argsOf c) v → IsSize E (argsOf c') v → SameAxesOption c c'
  | margin {n c c' v} : n ∈ ["margin", "margin-top", "margin-right", "margin-bottom", "margin-left"] →
      nameOf c = some (String.toList n) → nameOf c' = some (String.toList n) → IsSize E (argsOf c) v → IsSize E (argsOf c') v →
      SameAxesOption c c'

/-- Two options of a legend that are the same but for the notation of values, in the items as well. -/
inductive SameLegendOption : Expr → Expr → Prop
  | option {c c'} : SameOption P E c c' → SameLegendOption c c'
  | item {c c'} : nameOf c = some "item".toList → nameOf c' = some "item".toList →
      List.Forall₂ (SameOption P E) (argsOf c) (argsOf c') → SameLegendOption c c'

/-- Two options of a rectangle or text in a drawing that are the same but for the notation of their value. -/
inductive SameDrawOption : Expr → Expr → Prop
  | same (c) : SameDrawOption c c
  | color {c c' k} : nameOf c = some "color".toList → nameOf c' = some "color".toList → IsColor E (argsOf c) k →
      IsColor E (argsOf c') k → SameDrawOption c c'
  | fill {c c' k} : nameOf c = some "fill".toList → nameOf c' = some "fill".toList → FillMeans E (argsOf c) k →
      FillMeans E (argsOf c') k → SameDrawOption c c'
  | stroke {c c' k} : nameOf c = some "stroke".toList → nameOf c' = some "stroke".toList → StrokeMeans E (argsOf c) k →
      StrokeMeans E (argsOf c') k → SameDrawOption c c'
  | position {c c' v} : nameOf c = some "position".toList → nameOf c' = some "position".toList →
      Pictures.IsPosition E (argsOf c) v → Pictures.IsPosition E (argsOf c') v → SameDrawOption c c'
  | size {c c' v} : nameOf c = some "size".toList → nameOf c' = some "size".toList →
      Pictures.IsExtent E (argsOf c) v → Pictures.IsExtent E (argsOf c') v → SameDrawOption c c'
  | fontSize {c c' v} : nameOf c = some "font-size".toList → nameOf c' = some "font-size".toList →
      IsSize E (argsOf c) v → IsSize E (argsOf c') v → SameDrawOption c c'

/-- Two commands of a plot or drawing that are the same but for the notation of values in the options of an element. -/
inductive SameCommand : Expr → Expr → Prop
  | same (c) : SameCommand c c
  | element {n e cs cs'} : n ∈ plainElements → nameOf (.list (e :: cs)) = some (String.toList n) →
      List.Forall₂ (SameOption P E) cs cs' → SameCommand (.list (e :: cs)) (.list (e :: cs'))
  | drawing {n e cs cs'} : n ∈ ["rectangle", "text"] → nameOf (.list (e :: cs)) = some (String.toList n) →
      List.Forall₂ (SameDrawOption E) cs cs' → SameCommand (.list (e :: cs)) (.list (e :: cs'))
  | margin {n c c' v} : n ∈ ["margin", "margin-top", "margin-right", "margin-bottom", "margin-left"] →
      nameOf c = some (String.toList n) → nameOf c' = some (String.toList n) → IsSize E (argsOf c) v → IsSize E (argsOf c') v →
      SameCommand c c'
  | axes {e cs cs'} : nameOf (.list (e :: cs)) = some "axes".toList → List.Forall₂ (SameAxesOption E) cs cs' →
      SameCommand (.list (e :: cs)) (.list (e :: cs'))
  | legend {e cs cs'} : nameOf (.list (e :: cs)) = some "legend".toList → List.Forall₂ (SameLegendOption P E) cs cs' →
      SameCommand (.list (e :: cs)) (.list (e :: cs'))

end
end Clip.Options
