import Verif.Spec.WholeDocument
import Verif.Model.Program
import Verif.Spec.Cmdline
/-!
# What the program does (specification)
-/
namespace Clip.Whole
noncomputable section
variable {φ : Type}

/-- The name ends with the suffix. -/
def EndsWith (s : Str) (suffix : String) : Prop := ∃ r, s = r ++ suffix.toList

/-- The name names a font file: an absolute path or one that ends in `.otf` or `.ttf`. -/
def IsFontFile (s : Str) : Prop := (∃ r, s = '/' :: r) ∨ EndsWith s ".otf" ∨ EndsWith s ".ttf"

/-- The font that a name stands for. -/
def NamesFont (F : FontSystem φ) (name : Str) (f : φ) : Prop :=
  name ≠ [] ∧ ∃ file, ((IsFontFile name ∧ file = name) ∨ (¬ IsFontFile name ∧ F.find name = some file)) ∧ F.open_ file = some f

/-- The empty page: the fonts from the command line, the last one first, then the default fonts. -/
def StartPage (F : FontSystem φ) (names : List Str) (L : Layer φ) : Prop :=
  ∃ own defaults, List.Forall₂ (NamesFont F) names own ∧ List.Forall₂ (fun file f => F.open_ file = some f) F.defaults defaults ∧
    L = { newLayer φ with fonts := own.reverse ++ defaults }

end
end Clip.Whole
