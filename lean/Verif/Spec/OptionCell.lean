import Verif.Model.OptionCell
import Mathlib.Data.Finset.Card
/-!
# Optional values as a user of them thinks of them (specification)
-/
namespace Clip.OptionCell
variable {τ : Type}

/-- The variables of a program: which exist, and the value of each, if it has one. -/
abbrev Vars (τ : Type) := Nat → Option (Option τ)

def Vars.set (s : Vars τ) (i : Nat) (v : Option (Option τ)) : Vars τ := fun k => if k = i then v else s k

/-- What each step of a program should do to its variables.  A variable is constructed once, and used between its construction
and its end only; an assignment that fails changes nothing. -/
inductive Does : Op τ → Vars τ → Vars τ → Prop
  | empty {s : Vars τ} {i : Nat} : s i = none → Does (.empty i) s (s.set i (some none))
  | value {s : Vars τ} {i : Nat} {v : τ} : s i = none → Does (.value i v) s (s.set i (some (some v)))
  | copy {s : Vars τ} {i j : Nat} {o : Option τ} : s i = none → s j = some o → Does (.copy i j) s (s.set i (some o))
  | move {s : Vars τ} {i j : Nat} {o : Option τ} : s i = none → s j = some o →
      Does (.move i j) s ((s.set i (some o)).set j (some none))
  | drop {s : Vars τ} {i : Nat} {o : Option τ} : s i = some o → Does (.drop i) s (s.set i none)
  | assign {s : Vars τ} {i j : Nat} {p o : Option τ} : s i = some p → s j = some o → Does (.assign i j) s (s.set i (some o))
  | moveAssign {s : Vars τ} {i j : Nat} {p o : Option τ} : i ≠ j → s i = some p → s j = some o →
      Does (.moveAssign i j) s ((s.set i (some o)).set j (some none))
  | moveSelf {s : Vars τ} {i : Nat} {p : Option τ} : s i = some p → Does (.moveAssign i i) s s
  | assignThrows {s : Vars τ} {i j : Nat} {p : Option τ} {v : τ} : s i = some p → s j = some (some v) →
      Does (.assignThrows i j) s s

/-- What a program should do. -/
inductive DoesAll : List (Op τ) → Vars τ → Vars τ → Prop
  | nil (s : Vars τ) : DoesAll [] s s
  | cons {o : Op τ} {os : List (Op τ)} {s s₁ s' : Vars τ} : Does o s s₁ → DoesAll os s₁ s' → DoesAll (o :: os) s s'

/-- The memory holds the variables: an option knows whether it has a value, and holds it. -/
def Holds (m : Mem τ) (s : Vars τ) : Prop :=
  ∀ i, match s i with
    | none => m.cell i = none
    | some none => m.cell i = some ⟨false, none⟩
    | some (some v) => m.cell i = some ⟨true, some v⟩

/-- No value is lost and none is destroyed twice: the values that were constructed and not yet destroyed are those of the
variables. -/
def Balanced (m : Mem τ) (s : Vars τ) : Prop :=
  ∃ full : Finset Nat, (∀ i, i ∈ full ↔ ∃ v, s i = some (some v)) ∧ m.made = m.gone + full.card

end Clip.OptionCell
