import Verif.Model.Outcome
/-!
# Specification helpers for data loading
-/
namespace Clip.DataSpec

/-- The `n`-th piece of a sequence cut at the given positions: from cut `n-1` (or the beginning) up to cut
`n` (or the end). -/
def pieces {α : Type} (cuts : List Nat) (l : List α) : List (List α) :=
  List.zipWith (fun b e => (l.take e).drop b) (0 :: cuts) (cuts ++ [l.length])

/-- The entries of column `idx`, one per row. -/
def columnOf (idx : Nat) (rows : List (List Str)) : List (Option Str) := rows.map (·[idx]?)

/-- `idx` is the first column named `name`. -/
def IsColumn (headers : List Str) (name : Str) (idx : Nat) : Prop :=
  ∃ h : idx < headers.length, headers[idx] = name ∧ ∀ j (hj : j < idx), headers[j] ≠ name

/-- The name of the column to be loaded: the one given, quoted or not, or else the default. -/
def ColumnName (dflt : Str) (given : Option Expr) (name : Str) : Prop :=
  (given = none ∧ name = dflt) ∨ given = some (.literal name) ∨ given = some (.value name)

end Clip.DataSpec
