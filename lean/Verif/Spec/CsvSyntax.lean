import Verif.Model.Sexpr
/-!
# Specification of CSV texts (RFC 4180), independent of the parser
-/
namespace Clip.CsvSyntax

/-- RFC 4180 rule 7: a quote inside a quoted field is doubled. -/
def escape : Str → Str
  | [] => []
  | c :: cs => if c = '"' then '"' :: '"' :: escape cs else c :: escape cs

/-- RFC 4180 rules 5-7: a field is written in quotes, or bare if it contains no special character. -/
inductive FieldText (f : Str) : Str → Prop
  | quoted : FieldText f ('"' :: escape f ++ ['"'])
  | bare (h : ∀ c ∈ f, c ≠ '"' ∧ c ≠ ',' ∧ c ≠ '\r' ∧ c ≠ '\n') : FieldText f f

/-- Rule 4: fields separated by commas (at least one field). -/
inductive RowText : List Str → Str → Prop
  | one {f t} : FieldText f t → RowText [f] t
  | cons {f t fs ts} : FieldText f t → RowText fs ts → RowText (f :: fs) (t ++ ',' :: ts)

/-- Rule 1: a line break (CRLF; a plain LF is accepted as well). -/
inductive Eol : Str → Prop
  | lf : Eol ['\n']
  | crlf : Eol ['\r', '\n']

/-- A table in which every line is terminated. -/
inductive Lines : List (List Str) → Str → Prop
  | nil : Lines [] []
  | cons {r t e rs ts} : RowText r t → Eol e → Lines rs ts → Lines (r :: rs) (t ++ e ++ ts)

/-- Rule 2: the last line break may be missing. -/
inductive TableText : List (List Str) → Str → Prop
  | lines {rs t} : Lines rs t → TableText rs t
  | last {rs t r u} : Lines rs t → RowText r u → TableText (rs ++ [r]) (t ++ u)

/-- A concrete writer: every field quoted, every line terminated by CRLF. -/
def writeField (f : Str) : Str := '"' :: escape f ++ ['"']
def writeRow : List Str → Str
  | [] => []
  | [f] => writeField f
  | f :: fs => writeField f ++ ',' :: writeRow fs
def write : List (List Str) → Str
  | [] => []
  | r :: rs => writeRow r ++ ['\r', '\n'] ++ write rs

end Clip.CsvSyntax

namespace Clip.CsvSyntax.Dialect
/-! The texts this reader is meant to accept: RFC 4180, plus bare fields containing quotes after their
first character, plus a dangling comma at the very end of the text. -/

inductive Field (f : Str) : Str → Prop
  | quoted : Field f ('"' :: escape f ++ ['"'])
  | bare (h : ∀ c ∈ f, c ≠ ',' ∧ c ≠ '\r' ∧ c ≠ '\n') (hq : f.head? ≠ some '"') : Field f f

inductive Row : List Str → Str → Prop
  | one {f t} : Field f t → Row [f] t
  | cons {f t fs ts} : Field f t → Row fs ts → Row (f :: fs) (t ++ ',' :: ts)

inductive Lines : List (List Str) → Str → Prop
  | nil : Lines [] []
  | cons {r t e rs ts} : Row r t → Eol e → Lines rs ts → Lines (r :: rs) (t ++ e ++ ts)

inductive Table : List (List Str) → Str → Prop
  | lines {rs t} : Lines rs t → Table rs t
  | last {rs t r u} : Lines rs t → Row r u → u ≠ [] → u.getLast? ≠ some ',' → Table (rs ++ [r]) (t ++ u)
  | comma {rs t r u} : Lines rs t → Row r u → Table (rs ++ [r]) (t ++ u ++ [','])

end Clip.CsvSyntax.Dialect
