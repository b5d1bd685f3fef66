import Verif.Model.Plist
/-!
# Property list syntax (specification)
-/
namespace Clip.PlistSyntax

/-- Value lists: words, strings, calls `name(values)`, commas optional. -/
inductive Values : List PTok → List Expr → Prop
  | nil : Values [] []
  | comma {ts es} : Values ts es → Values (.comma :: ts) es
  | quoted {s ts es} : Values ts es → Values (.quoted s :: ts) (.value s :: es)
  | word {s ts es} : Values ts es → Values (.str s :: ts) (.literal s :: es)
  | call {s ts es us fs} : Values ts es → Values us fs →
      Values (.str s :: .lparen :: ts ++ .rparen :: us) (.list (.literal s :: es) :: fs)

/-- A property name may be written with or without quotes. -/
inductive Name : PTok → Str → Prop
  | str {s} : Name (.str s) s
  | quoted {s} : Name (.quoted s) s

/-- Documents: `name: values;` and `name { document }`. -/
inductive Doc : List PTok → List Expr → Prop
  | nil : Doc [] []
  | prop {n s ts vs us es} : Name n s → Values ts vs → Doc us es →
      Doc (n :: .colon :: ts ++ .semicolon :: us) (.list (.literal s :: vs) :: es)
  | block {n s ts fs us es} : Name n s → Doc ts fs → Doc us es →
      Doc (n :: .lcbrace :: ts ++ .rcbrace :: us) (.list (.literal s :: fs) :: es)

/-- Value lists in which the closing parentheses of the last call(s) are missing. -/
inductive Unclosed : List PTok → List Expr → Prop
  | last {ts es s us fs} : Values ts es → Values us fs →
      Unclosed (ts ++ .str s :: .lparen :: us) (es ++ [.list (.literal s :: fs)])
  | nest {ts es s us fs} : Values ts es → Unclosed us fs →
      Unclosed (ts ++ .str s :: .lparen :: us) (es ++ [.list (.literal s :: fs)])

/-- Documents that may also contain value lists with missing closing parentheses. -/
inductive LaxDoc : List PTok → List Expr → Prop
  | nil : LaxDoc [] []
  | prop {n s ts vs us es} : Name n s → (Values ts vs ∨ Unclosed ts vs) → LaxDoc us es →
      LaxDoc (n :: .colon :: ts ++ .semicolon :: us) (.list (.literal s :: vs) :: es)
  | block {n s ts fs us es} : Name n s → LaxDoc ts fs → LaxDoc us es →
      LaxDoc (n :: .lcbrace :: ts ++ .rcbrace :: us) (.list (.literal s :: fs) :: es)

/-! ## Text of tokens -/

/-- Characters with a meaning of their own. -/
def special : List Char :=
  [' ', '\n', '\t', '\r', ',', ':', ';', '(', ')', '{', '}', '"', '\'']

/-- A character inside a quoted string as written: plain or after a backslash. -/
inductive QC where
  | raw (c : Char)
  | esc (c : Char)

def QC.text : QC → Str
  | .raw c => [c]
  | .esc c => ['\\', c]
def QC.char : QC → Char
  | .raw c => c
  | .esc c => c
def QC.ok (q : Char) : QC → Prop
  | .raw c => c ≠ q ∧ c ≠ '\\'
  | .esc _ => True

/-- `Written t text`: `text` is a way to write the token `t`. -/
inductive Written : PTok → Str → Prop
  | comma : Written .comma [',']
  | colon : Written .colon [':']
  | semicolon : Written .semicolon [';']
  | lparen : Written .lparen ['(']
  | rparen : Written .rparen [')']
  | lcbrace : Written .lcbrace ['{']
  | rcbrace : Written .rcbrace ['}']
  | str {s} : s ≠ [] → (∀ c ∈ s, c ∉ special) → Written (.str s) s
  | quoted {q} {body : List QC} : (q = '"' ∨ q = '\'') → (∀ x ∈ body, x.ok q) →
      Written (.quoted (body.map QC.char)) (q :: body.flatMap QC.text ++ [q])

def isWord : PTok → Bool
  | .str _ => true
  | _ => false

/-- `Text ts text`: `text` writes the tokens `ts` with blanks (space, tab, newline, carriage return)
anywhere between them; two words must be separated by a blank. -/
inductive Text : List PTok → Str → Prop
  | nil : Text [] []
  | blank {c ts text} : c ∈ [' ', '\n', '\t', '\r'] → Text ts text → Text ts (c :: text)
  | tok {t w ts text} : Written t w → Text ts text →
      (isWord t = true → ∀ c ∈ text.head?, c ∈ special) → Text (t :: ts) (w ++ text)

/-! ## Abstract documents and one canonical way to write them -/

inductive PVal where
  | word (s : Str)
  | quoted (s : Str)
  | call (name : Str) (args : List PVal)

inductive PProp where
  | prop (name : Str) (vals : List PVal)
  | block (name : Str) (props : List PProp)

mutual
/-- The expression a value stands for. -/
def PVal.expr : PVal → Expr
  | .word s => .literal s
  | .quoted s => .value s
  | .call n args => .list (.literal n :: PVal.exprs args)
def PVal.exprs : List PVal → List Expr
  | [] => []
  | v :: vs => v.expr :: PVal.exprs vs
end

mutual
/-- The expression a property stands for. -/
def PProp.expr : PProp → Expr
  | .prop n vals => .list (.literal n :: PVal.exprs vals)
  | .block n ps => .list (.literal n :: PProp.exprs ps)
def PProp.exprs : List PProp → List Expr
  | [] => []
  | p :: ps => p.expr :: PProp.exprs ps
end

/-- A string in double quotes; quotes and backslashes are escaped. -/
def printQuoted (s : Str) : Str :=
  '"' :: (s.flatMap fun c => if c = '"' ∨ c = '\\' then ['\\', c] else [c]) ++ ['"']

mutual
/-- Text of a value, e.g. `rgb(1, "x", )`. -/
def PVal.text : PVal → Str
  | .word s => s
  | .quoted s => printQuoted s
  | .call n args => n ++ '(' :: PVal.texts args ++ [')']
def PVal.texts : List PVal → Str
  | [] => []
  | v :: vs => v.text ++ ',' :: ' ' :: PVal.texts vs
end

mutual
/-- Text of a property. -/
def PProp.text : PProp → Str
  | .prop n vals => printQuoted n ++ ':' :: ' ' :: PVal.texts vals ++ [';', '\n']
  | .block n ps => printQuoted n ++ '{' :: '\n' :: PProp.texts ps ++ ['}', '\n']
def PProp.texts : List PProp → Str
  | [] => []
  | p :: ps => p.text ++ PProp.texts ps
end

/-- May be written without quotes. -/
def Plain (s : Str) : Prop := s ≠ [] ∧ ∀ c ∈ s, c ∉ special

mutual
def PVal.ok : PVal → Prop
  | .word s => Plain s
  | .quoted _ => True
  | .call n args => Plain n ∧ PVal.oks args
def PVal.oks : List PVal → Prop
  | [] => True
  | v :: vs => v.ok ∧ PVal.oks vs
end

mutual
def PProp.ok : PProp → Prop
  | .prop _ vals => PVal.oks vals
  | .block _ ps => PProp.oks ps
def PProp.oks : List PProp → Prop
  | [] => True
  | p :: ps => p.ok ∧ PProp.oks ps
end

end Clip.PlistSyntax
