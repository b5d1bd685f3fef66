import Verif.Model.Sexpr
/-!
# Model of `src/plist_parser.cc` (`PropertyListParser`)

`getToken` keeps a one-token look-ahead cache (`has_token_`, plist_parser.cc:245-247, 404-409) that
`consumeToken` (412-416) drops; tokenisation never fails and does not depend on the parser's state.
The model therefore tokenises the whole input first and lets the parser walk over the
token list: `getToken` is "look at the head", `consumeToken` is "drop the head".
Error messages are not modelled, only failure.  The one-past-the-end read of
`*input_cur_` in plist_parser.cc:382-396 (tested before `input_cur_ < input_end_`) is not modelled here.
-/
namespace Clip

/-- plist_parser.h `enum TokenType`, with the token text for the two string tokens. -/
inductive PTok where
  | str (s : Str)
  | quoted (s : Str)
  | comma | colon | semicolon | lparen | rparen | lcbrace | rcbrace
  deriving DecidableEq, Repr

/-- plist_parser.cc:383-395: characters that end an unquoted string. -/
def isPlistDelim (c : Char) : Bool :=
  isBlank c || c == ',' || c == ':' || c == ';' || c == '(' || c == ')' || c == '{' || c == '}' ||
  c == '"' || c == '\''

/-- plist_parser.cc:382-399: an unquoted string and the remaining input. -/
def plistWord : Str → Str × Str
  | [] => ([], [])
  | c :: cs => if isPlistDelim c then ([], c :: cs) else (c :: (plistWord cs).1, (plistWord cs).2)

/-- plist_parser.cc:345-377: the text of a string quoted with `q` (flag: previous character was an
unescaped backslash) and the remaining input.  The end of the input also ends the string. -/
def plistQuoted (q : Char) : Bool → Str → Str × Str
  | _, [] => ([], [])
  | escaped, c :: cs =>
    if c = '"' ∨ c = '\'' then
      if escaped ∨ q ≠ c then (c :: (plistQuoted q false cs).1, (plistQuoted q false cs).2)
      else ([], cs)
    else if c = '\\' then
      if escaped then ('\\' :: (plistQuoted q false cs).1, (plistQuoted q false cs).2)
      else plistQuoted q true cs
    else (c :: (plistQuoted q false cs).1, (plistQuoted q false cs).2)

theorem plistWord_le (cs : Str) : (plistWord cs).2.length ≤ cs.length := by
  induction cs with
  | nil => simp [plistWord]
  | cons c cs ih => simp only [plistWord]; split <;> simp; omega

theorem plistQuoted_le (q : Char) (b : Bool) (cs : Str) :
    (plistQuoted q b cs).2.length ≤ cs.length := by
  induction cs generalizing b with
  | nil => simp [plistQuoted]
  | cons c cs ih =>
    simp only [plistQuoted]
    split
    · split
      · have := ih false; simp; omega
      · simp
    · split
      · split
        · have := ih false; simp; omega
        · have := ih true; simp; omega
      · have := ih false; simp; omega

/-- plist_parser.cc:239-410 `getToken`, iterated: all tokens of the input. -/
def plistTokens : Str → List PTok
  | [] => []
  | c :: cs =>
    if isBlank c then plistTokens cs                       -- 250-259
    else if c = ',' then .comma :: plistTokens cs          -- 285-327
    else if c = ':' then .colon :: plistTokens cs
    else if c = ';' then .semicolon :: plistTokens cs
    else if c = '(' then .lparen :: plistTokens cs
    else if c = ')' then .rparen :: plistTokens cs
    else if c = '{' then .lcbrace :: plistTokens cs
    else if c = '}' then .rcbrace :: plistTokens cs
    else if c = '"' ∨ c = '\'' then                        -- 330-334, 344-380
      .quoted (plistQuoted c false cs).1 :: plistTokens (plistQuoted c false cs).2
    else                                                   -- 381-402 (`c` is not a delimiter)
      .str (c :: (plistWord cs).1) :: plistTokens (plistWord cs).2
termination_by cs => cs.length
decreasing_by
  all_goals simp_wf
  · have := plistQuoted_le c false cs; omega
  · have := plistWord_le cs; omega

/-- Outcome of a parser function: `none` = out of fuel (the recursion did not finish),
`some none` = returned `false`, `some (some (x, rest))` = returned `true`. -/
abbrev PRes (α : Type) := Option (Option (α × List PTok))

/-- plist_parser.cc:172: `expectAndConsumeToken(T_RPAREN)` with its result ignored: a closing
parenthesis is consumed if there is one. -/
def dropRparen : List PTok → List PTok
  | .rparen :: r => r
  | r => r

/-- plist_parser.cc:112-203 `parsePropertyValues` with `parsePropertyValueOrEnum` (151-176) and
`parsePropertyValue` (178-203) inlined.  The `false` of `expectAndConsumeToken(T_RPAREN)` at
line 172 is ignored by the code. -/
def parsePropertyValues : Nat → List PTok → PRes (List Expr)
  | 0, _ => none
  | _ + 1, [] => some (some ([], []))
  | _ + 1, .semicolon :: ts => some (some ([], .semicolon :: ts))
  | _ + 1, .rparen :: ts => some (some ([], .rparen :: ts))
  | fuel + 1, .comma :: ts => parsePropertyValues fuel ts
  | fuel + 1, .quoted s :: ts =>
    match parsePropertyValues fuel ts with
    | some (some (es, r)) => some (some (.value s :: es, r))
    | r => r
  | fuel + 1, .str s :: .lparen :: ts =>
    match parsePropertyValues fuel ts with
    | some (some (args, r)) =>
      match parsePropertyValues fuel (dropRparen r) with
      | some (some (es, r')) => some (some (.list (.literal s :: args) :: es, r'))
      | x => x
    | x => x
  | fuel + 1, .str s :: ts =>
    match parsePropertyValues fuel ts with
    | some (some (es, r)) => some (some (.literal s :: es, r))
    | r => r
  | _ + 1, .colon :: _ => some none
  | _ + 1, .lparen :: _ => some none
  | _ + 1, .lcbrace :: _ => some none
  | _ + 1, .rcbrace :: _ => some none

mutual
/-- plist_parser.cc:64-110 `parsePropertyOrMap` with `parseProperty` (101-110) inlined. -/
def parsePropertyOrMap : Nat → List PTok → PRes Expr
  | 0, _ => none
  | fuel + 1, toks =>
    let go (pname : Str) (ts : List PTok) : PRes Expr :=
      match ts with
      | .colon :: ts =>
        match parsePropertyValues fuel ts with
        | some (some (vals, .semicolon :: r)) => some (some (.list (.literal pname :: vals), r))
        | some _ => some none
        | none => none
      | .lcbrace :: ts =>
        match parsePropertyMap fuel ts with
        | some (some (es, .rcbrace :: r)) => some (some (.list (.literal pname :: es), r))
        | some _ => some none
        | none => none
      | _ => some none
    match toks with
    | .str pname :: ts => go pname ts
    | .quoted pname :: ts => go pname ts
    | _ => some none
/-- plist_parser.cc:205-221: the loop of `parsePropertyMap`. -/
def parsePropertyMap : Nat → List PTok → PRes (List Expr)
  | 0, _ => none
  | _ + 1, [] => some (some ([], []))
  | _ + 1, .rcbrace :: ts => some (some ([], .rcbrace :: ts))
  | fuel + 1, ts =>
    match parsePropertyOrMap fuel ts with
    | some (some (e, r)) =>
      match parsePropertyMap fuel r with
      | some (some (es, r')) => some (some (e :: es, r'))
      | x => x
    | some none => some none
    | none => none
end

/-- plist_parser.cc:52-62 `parse`, on the token list. -/
def plistParseToks : Nat → List PTok → Option (Option (List Expr))
  | 0, _ => none
  | _ + 1, [] => some (some [])
  | fuel + 1, ts =>
    match parsePropertyOrMap fuel ts with
    | some (some (e, r)) =>
      match plistParseToks fuel r with
      | some (some es) => some (some (e :: es))
      | x => x
    | some none => some none
    | none => none

/-- plist_parser.cc:39-62: construct a parser for `input` and call `parse`; result `some es` for
`true` with the list `es`, `none` for `false`.  `fuel` bounds the recursion depth plus the number of loop
iterations. -/
def plistParse (fuel : Nat) (input : Str) : Option (Option (List Expr)) :=
  plistParseToks fuel (plistTokens input)

end Clip
