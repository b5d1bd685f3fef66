import Verif.Model.Files
/-!
# File systems (specification)
-/
namespace Clip.Files

/-- The file system is a tree: the root is a directory, and everything is in a directory. -/
def IsTree (t : Tree) : Prop := t [] = some .dir ∧ ∀ q n k, t (q ++ [n]) = some k → t q = some .dir

/-- Compared to `t`, `t'` has more directories on the way to the place `p`, and otherwise is the same. -/
def OnlyMade (p : Place) (t t' : Tree) : Prop := ∀ q, t' q = t q ∨ (t q = none ∧ t' q = some .dir ∧ q <+: p)

end Clip.Files
