import Mathlib.Data.Real.Basic
/-!
# Reading order and glyph placement
-/
namespace Clip.Bidi

/-- `m` is the least level of the positions from `i` to `j`. -/
def LeastBetween (ls : List Nat) (i j m : Nat) : Prop :=
  (∀ k l, i ≤ k → k ≤ j → ls[k]? = some l → m ≤ l) ∧ ∃ k, i ≤ k ∧ k ≤ j ∧ ls[k]? = some m

/-- In the list `order` of indexes, `i` comes before `j`. -/
def Before (order : List Nat) (i j : Nat) : Prop :=
  ∃ p q : Nat, p < q ∧ order[p]? = some i ∧ order[q]? = some j

end Clip.Bidi
