import Verif.Spec.Text
import Verif.Spec.CsvSyntax
import Verif.Spec.Data
import Verif.Model.PlotConf
/-!
# What the arguments of options mean (specification)

Numbers, lengths, colours, texts, data and formats, from the expressions of the document.  `stod` is the C library's number
reader: the number at the beginning of a text and how many characters it takes.
-/
namespace Clip.Arguments
open CsvSyntax DataSpec TextSpec
noncomputable section

/-- The expression is this text, quoted or not. -/
def Wrote (e : Expr) (t : Str) : Prop := e = .literal t ∨ e = .value t

/-- The text of an expression where lists are not refused: a list counts as an empty text. -/
def Says (e : Expr) (t : Str) : Prop := Wrote e t ∨ (t = [] ∧ ∃ es, e = .list es)

/-- The first argument is a list that begins with this word. -/
def Call (args : List Expr) (w : String) (es : List Expr) : Prop :=
  ∃ h rest, args = .list (h :: es) :: rest ∧ Wrote h w.toList

variable (stod : Str → Option (ℝ × Nat))

/-- The text begins with this number; what follows does not matter. -/
def Number (t : Str) (v : ℝ) : Prop := ∃ n, stod t = some (v, n)

/-- The text is this number followed by this unit. -/
def NumberThen (t : Str) (v : ℝ) (u : Str) : Prop := ∃ n, n ≤ t.length ∧ stod t = some (v, n) ∧ u = t.drop n

/-- The expression is a number. -/
def NumberArg (e : Expr) (v : ℝ) : Prop := ∃ t, Wrote e t ∧ Number stod t v

/-- A length of the page in pixels: only millimetres, points and pixels count. -/
def extent (dpi : ℝ) (m : Measure) : ℝ :=
  if m.unit = .mm then m.value * (dpi / 25.4) else if m.unit = .pt then m.value * (dpi / 72)
  else if m.unit = .px then m.value else 0

/-- The units of sizes, in pixels. -/
def sizeUnits (S : LayerSize) : List (String × ℝ) := [("mm", S.dpi / 25.4), ("pt", S.dpi / 72), ("px", 1),
  ("em", extent S.dpi S.fontSize), ("rem", extent S.dpi S.fontSize)]

/-- The units of positions, in pixels; `whole` is the length of the page in that direction. -/
def placeUnits (dpi whole : ℝ) : List (String × ℝ) := [("mm", dpi / 25.4), ("pt", dpi / 72), ("px", 1), ("%", whole / 100)]

/-- The expression is a length: a number with a unit; only zero needs none. -/
def Length (units : List (String × ℝ)) (e : Expr) (x : ℝ) : Prop :=
  ∃ t v u, Wrote e t ∧ NumberThen stod t v u ∧
    ((u = [] ∧ v = 0 ∧ x = 0) ∨ ∃ w f, (w, f) ∈ units ∧ u = String.toList w ∧ x = v * f)

/-- The units of measures that are kept as they are: what they are stored as, and the factor. -/
def measureUnits : List (String × MUnit × ℝ) := [("", .user, 1), ("mm", .mm, 1), ("px", .px, 1), ("pt", .pt, 1),
  ("em", .rem, 1), ("rem", .rem, 1), ("%", .rel, 1 / 100), ("rel", .rel, 1)]

/-- The text is a measure. -/
def MeasureText (t : Str) (m : Measure) : Prop :=
  ∃ v u w k f, NumberThen stod t v u ∧ (w, k, f) ∈ measureUnits ∧ u = String.toList w ∧ m = ⟨k, v * f⟩

/-- The units of the ends of a size map, in pixels: millimetres are taken for pixels, and a share is nothing. -/
def mapUnits (S : LayerSize) : List (String × ℝ) := [("", 1), ("mm", 1), ("px", 1), ("pt", S.dpi / 72),
  ("em", extent S.dpi S.fontSize), ("rem", extent S.dpi S.fontSize), ("%", 0), ("rel", 0)]

/-- The expression is an end of a size map. -/
def MapEnd (S : LayerSize) (e : Expr) (x : ℝ) : Prop :=
  ∃ t v u w f, Wrote e t ∧ NumberThen stod t v u ∧ (w, f) ∈ mapUnits S ∧ u = String.toList w ∧ x = v * f

/-! ## Colours -/

/-- Blank characters. -/
def blanks : List Char := [' ', '\t', '\n', '\x0b', '\x0c', '\r']

/-- What one or two characters mean as a channel of a `#` colour: hexadecimal digits; also a digit after a blank or a
sign, and a digit before anything. -/
inductive Channel : Str → ℤ → Prop
  | one {a : Char} {x : Nat} : hexVal a = some x → Channel [a] x
  | two {a b : Char} {x y : Nat} : hexVal a = some x → hexVal b = some y → Channel [a, b] (16 * x + y : ℕ)
  | first {a b : Char} {x : Nat} : hexVal a = some x → hexVal b = none → Channel [a, b] x
  | blank {a b : Char} {y : Nat} : a = '+' ∨ a ∈ blanks → hexVal b = some y → Channel [a, b] y
  | minus {b : Char} {y : Nat} : hexVal b = some y → Channel ['-', b] (-(y : ℤ))

/-- A `#` colour: three digits, three pairs, or four pairs of which the last is the opacity. -/
inductive HashColor : Str → ℝ → ℝ → ℝ → ℝ → Prop
  | short {r g b : Char} {x y z : ℤ} : Channel [r] x → Channel [g] y → Channel [b] z →
      HashColor ['#', r, g, b] (x / 15) (y / 15) (z / 15) 1
  | pairs {r r' g g' b b' : Char} {x y z : ℤ} : Channel [r, r'] x → Channel [g, g'] y → Channel [b, b'] z →
      HashColor ['#', r, r', g, g', b, b'] (x / 255) (y / 255) (z / 255) 1
  | alpha {r r' g g' b b' a a' : Char} {x y z w : ℤ} : Channel [r, r'] x → Channel [g, g'] y → Channel [b, b'] z →
      Channel [a, a'] w → HashColor ['#', r, r', g, g', b, b', a, a'] (x / 255) (y / 255) (z / 255) (w / 255)

/-- Within the rounding of single precision numbers. -/
def Close (c : Color) (r g b a : ℝ) : Prop :=
  |c.r - r| ≤ 1 / 2 ^ 24 ∧ |c.g - g| ≤ 1 / 2 ^ 24 ∧ |c.b - b| ≤ 1 / 2 ^ 24 ∧ |c.a - a| ≤ 1 / 2 ^ 24

/-- The other colours: an entry of the palette, counted from 1 and starting over at its end; or components.  (The
number 0 is one before the first, in 64 bit arithmetic.) -/
inductive OtherColor (palette : List Color) : Expr → Color → Prop
  | index {e t n c} : Wrote e t → t ≠ [] → Digits t (n + 1) → n + 1 < 2 ^ 63 → palette[n % palette.length]? = some c →
      OtherColor palette e c
  | zero {e t c} : Wrote e t → t ≠ [] → Digits t 0 → palette[(2 ^ 64 - 1) % palette.length]? = some c →
      OtherColor palette e c
  | rgb {h r g b x y z} : Wrote h "rgb".toList → NumberArg stod r x → NumberArg stod g y → NumberArg stod b z →
      OtherColor palette (.list [h, r, g, b]) ⟨x, y, z, 1⟩
  | rgba {h r g b a x y z w} : Wrote h "rgba".toList → NumberArg stod r x → NumberArg stod g y → NumberArg stod b z →
      NumberArg stod a w → OtherColor palette (.list [h, r, g, b, a]) ⟨x, y, z, w⟩

/-! ## Texts and data -/

variable (readFile : Str → Option Str)

/-- The entries of a column of a CSV file; a file without any line has no entries. -/
def Column (p c : Str) (vs : List Str) : Prop :=
  ∃ text, readFile p = some text ∧
    ((Dialect.Table [] text ∧ vs = []) ∨
     ∃ headers rows idx, Dialect.Table (headers :: rows) text ∧ IsColumn headers c idx ∧ vs.map some = columnOf idx rows)

/-- A file name and the name of a column, as expressions. -/
def ColumnArgs (es : List Expr) (vs : List Str) : Prop :=
  ∃ a b p c, es = [a, b] ∧ Wrote a p ∧ Wrote b c ∧ Column readFile p c vs

/-- Data values: `(csv file column)`, `(list …)`, or listed. -/
def DataArgs (args : List Expr) (vs : List Str) : Prop :=
  (∃ es, Call args "csv" es ∧ ColumnArgs readFile es vs) ∨
  (∃ es, Call args "list" es ∧ List.Forall₂ Says es vs) ∨
  ((∀ es, ¬ Call args "csv" es) ∧ (∀ es, ¬ Call args "list" es) ∧ List.Forall₂ Says args vs)

/-! ## Number formats -/

/-- A number of digits: the whole part, and none if negative. -/
def Count (e : Expr) (p : Nat) : Prop := ∃ t v, Says e t ∧ Number stod t v ∧ p = ⌊v⌋₊

/-- What a number format is. -/
inductive Format : List Expr → FormatSpec → Prop
  | fixedWord {e rest} : Wrote e "fixed".toList → Format (e :: rest) (.fixed 1)
  | fixedNone {args} : Call args "fixed" [] → Format args (.fixed 1)
  | fixed {args a p} : Call args "fixed" [a] → Count stod a p → Format args (.fixed p)
  | scientificWord {e rest} : Wrote e "scientific".toList → Format (e :: rest) (.scientific 1)
  | scientificNone {args} : Call args "scientific" [] → Format args (.scientific 1)
  | scientific {args a p} : Call args "scientific" [a] → Count stod a p → Format args (.scientific p)
  | datetimeWord {e rest} : Wrote e "datetime".toList → Format (e :: rest) (.datetime "%Y-%m-%d %H:%M:%S".toList)
  | datetimeNone {args} : Call args "datetime" [] → Format args (.datetime "%Y-%m-%d %H:%M:%S".toList)
  | datetime {args a t} : Call args "datetime" [a] → Says a t → Format args (.datetime t)
  | base {args a b} : Call args "base" [a] → Count stod a b → Format args (.base b 1)
  | basePrecision {args a a' b p} : Call args "base" [a, a'] → Count stod a b → Count stod a' p → Format args (.base b p)
  | integerWord {e rest} : Wrote e "integer".toList → Format (e :: rest) .integer
  | integer {args} : Call args "integer" [] → Format args .integer
  | customCsv {args es fs vs} : Call args "custom" es → Call es "csv" fs → ColumnArgs readFile fs vs →
      Format args (.custom vs)
  | custom {args es vs} : Call args "custom" es → (∀ l rest, es ≠ .list l :: rest) → List.Forall₂ Says es vs →
      Format args (.custom vs)

end
end Clip.Arguments
