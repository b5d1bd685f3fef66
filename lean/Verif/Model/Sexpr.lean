import Verif.Model.Machine
/-!
# Model of `src/sexpr.cc` and `src/sexpr_parser.cc`

Text is `List Char`; C++ works on bytes and only compares them with ASCII characters, so every
byte string is represented (byte `b` as `Char.ofNat b`).

`struct Expr` (sexpr.cc:29-34) is a first-child/next-sibling tree: `next` links the elements of a
chain, `list` is the first element of the inner chain.  A chain is modelled as `List Expr`; the
null pointer is `[]`.  Simplification: only LIST nodes carry an inner chain (all constructors in
sexpr.cc:44-69 guarantee it).
-/
namespace Clip

abbrev Str := List Char

/-- sexpr.cc:25-34 `enum class ExprType`, `struct Expr`. -/
inductive Expr where
  | list (items : List Expr)
  | literal (s : Str)
  | value (s : Str)

mutual
/-- Structural equality test (auxiliary: C++ never compares expressions). -/
def Expr.beq : Expr → Expr → Bool
  | .list a, .list b => Expr.beqs a b
  | .literal a, .literal b => a == b
  | .value a, .value b => a == b
  | _, _ => false
def Expr.beqs : List Expr → List Expr → Bool
  | [], [] => true
  | a :: as, b :: bs => Expr.beq a b && Expr.beqs as bs
  | _, _ => false
end

/-- sexpr.cc:155-157 `expr_is_value`. -/
def Expr.isValue : Expr → Bool
  | .list _ => false
  | _ => true

/-- sexpr.cc:119-121 `expr_is_list`. -/
def Expr.isList : Expr → Bool
  | .list _ => true
  | _ => false

/-- sexpr.cc:179-185 `expr_get_value` (the `value` field of a list node is the empty string). -/
def Expr.getValue : Expr → Str
  | .list _ => []
  | .literal s => s
  | .value s => s

mutual
/-- sexpr.cc:192-198: one iteration of `expr_clone`: copy type, value and (recursively) the list. -/
def exprCopyNode : Expr → Expr
  | .list l => .list (exprCloneAll l)
  | .literal s => .literal s
  | .value s => .value s
/-- sexpr.cc:187-205 `expr_clone` with the default `count = -1`: the test `count != 0`
(sexpr.cc:191) never fails (simplification: chains shorter than 2^32, so the decremented
`int` does not come back to 0). -/
def exprCloneAll : List Expr → List Expr
  | [] => []
  | e :: es => exprCopyNode e :: exprCloneAll es
end

/-- sexpr.cc:187-205 `expr_clone` with a count `n ≥ 0`. -/
def exprClone : Nat → List Expr → List Expr
  | 0, _ => []
  | _ + 1, [] => []
  | n + 1, e :: es => exprCopyNode e :: exprClone n es

mutual
/-- sexpr.cc:207-226 `expr_inspect` (of a non-null expression). -/
def exprInspect : Expr → Str
  | .literal s => s
  | .value s => s
  | .list l => '(' :: exprInspectList l ++ [')']
/-- sexpr.cc:228-240 `expr_inspect_list`. -/
def exprInspectList : List Expr → Str
  | [] => []
  | [e] => exprInspect e
  | e :: e' :: es => exprInspect e ++ ' ' :: exprInspectList (e' :: es)
end

/-- sexpr_parser.cc:29-32 / 116-119: the four blanks. -/
def isBlank (c : Char) : Bool := c == ' ' || c == '\n' || c == '\t' || c == '\r'

/-- sexpr_parser.cc:29-38: characters that end a literal. -/
def isLiteralStop (c : Char) : Bool :=
  isBlank c || c == '\\' || c == '\'' || c == '"' || c == ';' || c == '(' || c == ')'

/-- sexpr_parser.cc:21-50 `expr_parse_literal`: the literal and the remaining input. -/
def parseLiteral : Str → Str × Str
  | [] => ([], [])
  | c :: cs =>
    if isLiteralStop c then ([], c :: cs)
    else ((c :: (parseLiteral cs).1), (parseLiteral cs).2)

inductive ParseErr where
  | shortEscape | invalidEscape | unterminated | unbalanced
  deriving DecidableEq, Repr

/-- sexpr_parser.cc:79-102, the loop of `expr_parse_string` after the opening quote `q`, with
`expr_parse_string_escape` (52-71) inlined; returns the string and the remaining input. -/
def parseStringBody (q : Char) : Str → Except ParseErr (Str × Str)
  | [] => .error .unterminated
  | c :: cs =>
    if c = q then .ok ([], cs)
    else if c = '\\' then
      match cs with
      | [] => .error .shortEscape
      | d :: ds =>
        if d = '\\' ∨ d = '\'' ∨ d = '"' then
          match parseStringBody q ds with
          | .ok (s, rest) => .ok (d :: s, rest)
          | .error e => .error e
        else .error .invalidEscape
    else
      match parseStringBody q cs with
      | .ok (s, rest) => .ok (c :: s, rest)
      | .error e => .error e

/-- sexpr_parser.cc:124-126: skip a comment up to (not including) the newline. -/
def skipComment : Str → Str
  | [] => []
  | c :: cs => if c = '\n' then c :: cs else skipComment cs

/-- State of the main loop of `expr_parse` (sexpr_parser.cc:108-114).  The C++ stack holds
pointers to the slots where the next element of each open chain will be stored; here each entry
is the chain built so far, innermost first (`top` is `stack.top()`), and a finished list is attached
to its parent at the closing parenthesis instead of at the opening one (simplification: the
partially built tree left behind on an error return is not modelled). -/
structure PState where
  cur : Str
  top : List Expr
  rest : List (List Expr)

/-- One iteration of the loop in `expr_parse`, sexpr_parser.cc:114-182. -/
def parseStep (s : PState) : PState ⊕ Except ParseErr (List Expr) :=
  match s.cur with
  | [] =>
    -- 176-182: the stack has exactly one slot left iff no list is open
    match s.rest with
    | [] => .inr (.ok s.top)
    | _ :: _ => .inr (.error .unbalanced)
  | c :: cs =>
    if isBlank c then .inl { s with cur := cs }
    else if c = ';' then .inl { s with cur := skipComment (c :: cs) }
    else if c = '(' then .inl { cur := cs, top := [], rest := s.top :: s.rest }
    else if c = ')' then
      match s.rest with
      | [] => .inr (.error .unbalanced)
      | p :: ps => .inl { cur := cs, top := p ++ [.list s.top], rest := ps }
    else if c = '\'' ∨ c = '"' then
      match parseStringBody c cs with
      | .ok (str, rest) => .inl { s with cur := rest, top := s.top ++ [.value str] }
      | .error e => .inr (.error e)
    else
      .inl { s with cur := (parseLiteral (c :: cs)).2,
                    top := s.top ++ [.literal (parseLiteral (c :: cs)).1] }

/-- sexpr_parser.cc:104-114: the initial state of `expr_parse`. -/
def parseInit (input : Str) : PState := { cur := input, top := [], rest := [] }

/-- `expr_parse` returns `r` on `input`. -/
def ExprParse (input : Str) (r : Except ParseErr (List Expr)) : Prop :=
  Returns parseStep (parseInit input) r

/-- `expr_parse` does not return on `input`. -/
def ExprParseDiverges (input : Str) : Prop := Diverges parseStep (parseInit input)

end Clip
