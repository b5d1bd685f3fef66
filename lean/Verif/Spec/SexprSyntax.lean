import Verif.Model.Sexpr
/-!
# The textual s-expression syntax (specification)

Independent of the parser: what a document looks like (tokens separated by gaps) and
which expression chain a token sequence denotes.
-/
namespace Clip.SexprSyntax

/-- A character of a quoted string, as written: plain or preceded by a backslash. -/
inductive QChar where
  | raw (c : Char)
  | esc (c : Char)

def QChar.text : QChar → Str
  | .raw c => [c]
  | .esc c => ['\\', c]

def QChar.char : QChar → Char
  | .raw c => c
  | .esc c => c

/-- May be written inside a string quoted with `q`. -/
def QChar.ok (q : Char) : QChar → Prop
  | .raw c => c ≠ q ∧ c ≠ '\\'
  | .esc c => c = '\\' ∨ c = '\'' ∨ c = '"'

inductive Tok where
  | lp
  | rp
  | word (s : Str)
  | quoted (q : Char) (body : List QChar)

def Tok.text : Tok → Str
  | .lp => ['(']
  | .rp => [')']
  | .word s => s
  | .quoted q body => q :: (body.flatMap QChar.text) ++ [q]

/-- Characters that have a meaning of their own and so cannot occur in a bare word. -/
def special : List Char := [' ', '\n', '\t', '\r', '\\', '\'', '"', ';', '(', ')']

def Tok.ok : Tok → Prop
  | .lp => True
  | .rp => True
  | .word s => s ≠ [] ∧ ∀ c ∈ s, c ∉ special
  | .quoted q body => (q = '\'' ∨ q = '"') ∧ ∀ x ∈ body, x.ok q

/-- A piece of layout: one blank, or a comment running up to the end of its line. -/
inductive Gap where
  | blank (c : Char)
  | comment (body : Str)

def Gap.text : Gap → Str
  | .blank c => [c]
  | .comment body => ';' :: body ++ ['\n']

def Gap.ok : Gap → Prop
  | .blank c => c ∈ [' ', '\n', '\t', '\r']
  | .comment body => '\n' ∉ body

/-- A document: tokens, each preceded by layout, followed by `rest`. -/
def render (doc : List (List Gap × Tok)) (rest : Str) : Str :=
  match doc with
  | [] => rest
  | (gs, t) :: ds => gs.flatMap Gap.text ++ (t.text ++ render ds rest)

/-- Well-formed: pieces are well-formed and two consecutive words are separated. -/
def DocOk : List (List Gap × Tok) → Prop
  | [] => True
  | (gs, t) :: ds =>
    (∀ g ∈ gs, g.ok) ∧ t.ok ∧
    (match t, ds with
     | .word _, ([], .word _) :: _ => False
     | _, _ => True) ∧
    DocOk ds

def toks (doc : List (List Gap × Tok)) : List Tok := doc.map (·.2)

/-- The expression chain denoted by a token sequence. -/
inductive Denotes : List Tok → List Expr → Prop
  | nil : Denotes [] []
  | word {s ts es} : Denotes ts es → Denotes (.word s :: ts) (.literal s :: es)
  | quoted {q body ts es} : Denotes ts es →
      Denotes (.quoted q body :: ts) (.value (body.map QChar.char) :: es)
  | list {ts₁ es₁ ts₂ es₂} : Denotes ts₁ es₁ → Denotes ts₂ es₂ →
      Denotes (.lp :: ts₁ ++ .rp :: ts₂) (.list es₁ :: es₂)

def isLp : Tok → Bool
  | .lp => true
  | _ => false
def isRp : Tok → Bool
  | .rp => true
  | _ => false

/-- Parentheses are balanced: as many closing as opening ones, and no prefix has more closing than
opening ones. -/
def Balanced (ts : List Tok) : Prop :=
  ts.countP isLp = ts.countP isRp ∧
  ∀ n, (ts.take n).countP isRp ≤ (ts.take n).countP isLp

mutual
/-- Canonical way to write an expression as tokens (strings double-quoted, quotes and backslashes
escaped). -/
def exprToks : Expr → List Tok
  | .literal s => [.word s]
  | .value s => [.quoted '"' (s.map fun c =>
      if c = '\\' ∨ c = '\'' ∨ c = '"' then .esc c else .raw c)]
  | .list l => .lp :: exprsToks l ++ [.rp]
def exprsToks : List Expr → List Tok
  | [] => []
  | e :: es => exprToks e ++ exprsToks es
end

/-- Canonical text: tokens separated by one blank. -/
def printExprs (es : List Expr) : Str :=
  render ((exprsToks es).map fun t => ([Gap.blank ' '], t)) []

mutual
/-- Every bare word in the expression can be written as a bare word. -/
def Printable : Expr → Prop
  | .literal s => s ≠ [] ∧ ∀ c ∈ s, c ∉ special
  | .value _ => True
  | .list l => Printables l
def Printables : List Expr → Prop
  | [] => True
  | e :: es => Printable e ∧ Printables es
end

/-- Layout at the very end of the input: gaps and possibly an unfinished comment. -/
def EndLayout (tail : Str) : Prop :=
  ∃ gs : List Gap, (∀ g ∈ gs, g.ok) ∧
    (tail = gs.flatMap Gap.text ∨
     ∃ body, '\n' ∉ body ∧ tail = gs.flatMap Gap.text ++ ';' :: body)

end Clip.SexprSyntax
