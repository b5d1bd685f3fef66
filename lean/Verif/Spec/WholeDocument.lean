import Verif.Spec.WholePlot
import Verif.Spec.PlistSyntax
/-!
# What a document shows (specification)

A document is a list of settings and commands.  The settings describe the page; the commands are those of a drawing or of a
plot.
-/
namespace Clip.Whole
open Settings Pictures PlistSyntax
noncomputable section
variable {φ : Type}

/-- The names of the document settings. -/
def settingWords : List Str := ["class".toList, "size".toList, "dpi".toList, "font".toList, "font-size".toList]

/-- The item is a setting of the document. -/
def isSetting (c : Expr) : Bool := match nameOf c with
  | some n => decide (n ∈ settingWords)
  | none => false

/-- The items `doc` of a document describe the picture `L'`, on a page that is `L` before any setting.  The settings may
stand anywhere, except that a drawing must not end with one. -/
def DocumentOf (P : PlotEnv φ) (L : Layer φ) (doc : List Expr) (L' : Layer φ) : Prop :=
  ∃ page kind, PageMeans P.text P.stod (doc.filter isSetting) L page kind ∧
    ((kind = "plot".toList ∧ PlotOf P doc page L') ∨
     (kind = "draw".toList ∧ ((∀ c ∈ doc, isSetting c = true) ∨ ∀ c ∈ doc.getLast?, isSetting c = false) ∧
       ∃ shapes, List.Forall₂ (Draws P.text P.stod page) (doc.filter fun c => !isSetting c) shapes ∧
         L' = draw page shapes.flatten))

/-- The text `src` describes the picture `L'`. -/
def TextOf (P : PlotEnv φ) (L : Layer φ) (src : Str) (L' : Layer φ) : Prop :=
  ∃ toks doc, Text toks src ∧ LaxDoc toks doc ∧ DocumentOf P L doc L'

end
end Clip.Whole
