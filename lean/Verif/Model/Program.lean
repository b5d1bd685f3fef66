import Verif.Model.Cli
import Verif.Model.PlotModule
/-!
# Model of the whole program: `src/cli.cc` with the evaluation and the export of `src/eval.cc` and `src/graphics/export_svg.cc`,
and of the choice of fonts, `src/graphics/font_lookup.cc`, `src/layer.cc`, `src/context.cc`

Fontconfig and FreeType are parameters.
-/
namespace Clip
noncomputable section
variable {φ : Type}

/-- What fontconfig and FreeType are asked for. -/
structure FontSystem (φ : Type) where
  /-- font_lookup.cc:313-343: the files of the default fonts, the best one first -/
  defaults : List Str
  /-- font_lookup.cc:271-290: the file of the font that matches a pattern -/
  find : Str → Option Str
  /-- font_lookup.cc:239-252 `font_load` -/
  open_ : Str → Option φ

/-- font_lookup.cc:254-308 `font_load_best`, the font.  The file name that fontconfig returns is not empty. -/
def fontLoadBest (F : FontSystem φ) (pattern : Str) : Option φ :=
  if pattern = [] then none
  else
    let file := if pattern.head? = some '/' ∨ endsWith pattern ['.', 'o', 't', 'f'] = true ∨ endsWith pattern ['.', 't', 't', 'f'] = true
      then some pattern else F.find pattern
    match file with
    | none => none
    | some f => F.open_ f

/-- font_lookup.cc:310-360 `font_load_defaults`. -/
def fontLoadDefaults (F : FontSystem φ) : Option (List φ) := F.defaults.mapM F.open_

/-- font_lookup.cc:305 and layer.cc:48-52: each font is inserted in front of the others. -/
def fontLoadAll (F : FontSystem φ) : List Str → List φ → Option (List φ)
  | [], fonts => some fonts
  | n :: ns, fonts => match fontLoadBest F n with
    | none => none
    | some f => fontLoadAll F ns (f :: fonts)

/-- layer.cc:38-57 `layer_create`, context.cc:28-30 `context_setup_defaults` (`font_defaults` is true, context.cc:26). -/
def layerCreate (F : FontSystem φ) (names : List Str) : Option (Layer φ) :=
  match fontLoadDefaults F with
  | none => none
  | some ds => match fontLoadAll F names ds with
    | none => none
    | some fonts => some { newLayer φ with fonts := fonts }

/-- The environment of `main` (cli.cc:139-199). -/
def programEnv (F : FontSystem φ) (P : PlotEnv φ) (stdin version : Str) (hatch : Path → FillHatch → Path) : CliEnv (Layer φ) where
  setup := layerCreate F
  readFile := P.readFile
  stdin := stdin
  eval := evalAll P
  exportSvg := fun L => exportSvg version hatch L.svg

end
end Clip
