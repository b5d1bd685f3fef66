import Verif.Model.Machine
import Verif.Model.Sexpr
import Mathlib.Tactic.Tauto
/-!
# Model of `src/utils/json.cc`

A stream of bytes is a list of characters; at its end `peek` and `get` yield `EOF`.  `json_parse` is called again
and again on the same stream; `lex` is the sequence of what the calls deliver.  Error messages are not modelled.
-/
namespace Clip

/-- json.h `TokenType`, together with the `token_data` of numbers and strings. -/
inductive JTok where
  | objBegin | objEnd | arrBegin | arrEnd
  | num (s : Str)
  | str (s : Str)
  | true_ | false_ | null
  deriving DecidableEq, Repr

/-- json.cc:41-114, one iteration of the loop of `json_parse_string` after the opening quote.  State: the rest of the
input, the token text.  Result: `some (text, rest)` for `OK`, `none` for `unterminated string` (a NUL byte; it is
not consumed).  On a backslash line 50 `get`s the backslash itself, hence always takes the case of lines 56-58,
and then falls through to line 102, which appends the next character.  At the end of the input `get` yields
`EOF`, appended as the character 255. -/
def jsonStringStep : Str × Str → (Str × Str) ⊕ Option (Str × Str)
  | ([], acc) => .inl ([], acc ++ ['\xff'])
  | ('"' :: r, acc) => .inr (some (acc, r))
  | ('\x00' :: _, _) => .inr none
  | (['\\'], acc) => .inl ([], acc ++ ['\\', '\xff'])
  | ('\\' :: c :: r, acc) => .inl (r, acc ++ ['\\', c])
  | (c :: r, acc) => .inl (r, acc ++ [c])

/-- The outcome of `json_parse_string`. -/
inductive StringRes where
  | closed (text rest : Str)
  | nul
  | loops
  deriving DecidableEq, Repr

/-- The same as a recursive function (`jsonString_returns`, `jsonString_diverges` relate the two). -/
def jsonString : Str → Str → StringRes
  | [], _ => .loops
  | ['\\'], _ => .loops
  | '\\' :: c :: r, acc => jsonString r (acc ++ ['\\', c])
  | c :: r, acc =>
    if c = '"' then .closed acc r
    else if c = '\x00' then .nul
    else jsonString r (acc ++ [c])

/-- json.cc:121-136: the characters of a number token. -/
def isNumChar (c : Char) : Bool :=
  c = '-' || c = '+' || c = '.' || ('0' ≤ c && c ≤ '9') || c = 'e' || c = 'E'

/-- json.cc:116-151 `json_parse_number`; `none`: unexpected end of file (end of input or NUL). -/
def jsonNumber : Str → Str → Option (Str × Str)
  | [], _ => none
  | c :: r, acc =>
    if isNumChar c then jsonNumber r (acc ++ [c])
    else if c = ' ' then jsonNumber r acc
    else if c = '\x00' then none
    else some (acc, c :: r)

theorem jsonString_length {s acc : Str} {t r : Str} (h : jsonString s acc = .closed t r) : r.length < s.length := by
  fun_induction jsonString s acc with
  | case1 => cases h
  | case2 => cases h
  | case3 acc c r ih => have := ih h; simp; omega
  | case4 acc r _ => cases h; simp
  | case5 acc => cases h
  | case6 => rename_i ih; have := ih h; simp; omega

theorem jsonNumber_length {s acc : Str} {t r : Str} (h : jsonNumber s acc = some (t, r)) : r.length ≤ s.length := by
  fun_induction jsonNumber s acc with
  | case1 => cases h
  | case2 acc c r _ ih => have := ih h; simp; omega
  | case3 acc r _ ih => have := ih h; simp; omega
  | case4 acc => cases h
  | case5 acc c r => cases h; simp

/-- The characters that start a number (json.cc:191-203). -/
def isNumStart (c : Char) : Bool := c = '-' || ('0' ≤ c && c ≤ '9')

theorem isNumChar_of_start {c : Char} (h : isNumStart c = true) : isNumChar c = true := by
  simp only [isNumStart, isNumChar, Bool.or_eq_true, Bool.and_eq_true] at h ⊢
  tauto

/-- The result of one call of `json_parse`: a token, or an error that consumed input so that a further call
goes on behind it (a misspelled literal). -/
inductive JItem where
  | tok (t : JTok)
  | bad
  deriving DecidableEq, Repr

/-- What happens when all items are used up: every further call of `json_parse` is an error (end of input, NUL,
unexpected character: nothing is consumed), or the call never returns. -/
inductive JEnd where
  | error
  | loops
  deriving DecidableEq, Repr

structure JStream where
  items : List JItem
  fin : JEnd
  deriving DecidableEq, Repr

def JStream.push (i : JItem) (s : JStream) : JStream := { s with items := i :: s.items }

/-- json.cc:153-230 `json_parse`, called repeatedly.  `json_parse_literal` (24-39) reads as many bytes as the literal
has and compares; if there are fewer, the stream is at its end afterwards. -/
def lex : Str → JStream
  | [] => ⟨[], .error⟩
  | c :: r =>
    if c = '{' then (lex r).push (.tok .objBegin)
    else if c = '}' then (lex r).push (.tok .objEnd)
    else if c = '[' then (lex r).push (.tok .arrBegin)
    else if c = ']' then (lex r).push (.tok .arrEnd)
    else if c = ':' ∨ c = ',' ∨ c = ' ' ∨ c = '\n' ∨ c = '\r' ∨ c = '\t' then lex r
    else if _hn : isNumStart c = true then
      match _h : jsonNumber (c :: r) [] with
      | some (t, r') => (lex r').push (.tok (.num t))
      | none => ⟨[], .error⟩
    else if c = '"' then
      match _h : jsonString r [] with
      | .closed t r' => (lex r').push (.tok (.str t))
      | .nul => ⟨[], .error⟩
      | .loops => ⟨[], .loops⟩
    else if c = 't' then
      (lex (r.drop 3)).push (if (c :: r).take 4 = ['t', 'r', 'u', 'e'] then .tok .true_ else .bad)
    else if c = 'f' then
      (lex (r.drop 4)).push (if (c :: r).take 5 = ['f', 'a', 'l', 's', 'e'] then .tok .false_ else .bad)
    else if c = 'n' then
      (lex (r.drop 3)).push (if (c :: r).take 4 = ['n', 'u', 'l', 'l'] then .tok .null else .bad)
    else ⟨[], .error⟩
termination_by s => s.length
decreasing_by
  all_goals simp_wf
  · have := jsonNumber_length (s := r) (acc := [c]) (t := t) (r := r')
      (by simpa [jsonNumber, isNumChar_of_start _hn] using _h)
    omega
  · have := jsonString_length _h; omega
  all_goals omega

/-! ## Consuming tokens -/

/-- The outcome of reading from the stream, with the items left over. -/
inductive JRes (α : Type) where
  | ok (a : α) (rest : List JItem)
  | error (rest : List JItem)
  | loops
  | undefined
  | outOfFuel
  deriving DecidableEq, Repr

/-- One call of `json_parse`. -/
def jsonNext (fin : JEnd) : List JItem → JRes JTok
  | .tok t :: r => .ok t r
  | .bad :: r => .error r
  | [] => match fin with
    | .error => .error []
    | .loops => .loops

mutual
/-- json.cc:282-317 `json_skip_array`.  `fuel`: the number of calls and iterations; more than there are items is always
enough (`C57_skip_terminates`). -/
def jsonSkipArray (fin : JEnd) : Nat → List JItem → JRes Unit
  | 0, _ => .outOfFuel
  | n + 1, s =>
    match jsonNext fin s with
    | .ok t r =>
      match t with
      | .arrBegin =>
        match jsonSkipArray fin n r with
        | .ok _ r' => jsonSkipArray fin n r'
        | e => e
      | .objBegin =>
        match jsonSkipObject fin n r with
        | .ok _ r' => jsonSkipArray fin n r'
        | e => e
      | .arrEnd => .ok () r
      | .objEnd => .error r
      | _ => jsonSkipArray fin n r
    | .error r => .error r
    | .loops => .loops
    | .undefined => .undefined
    | .outOfFuel => .outOfFuel

/-- json.cc:319-365 `json_skip_object`. -/
def jsonSkipObject (fin : JEnd) : Nat → List JItem → JRes Unit
  | 0, _ => .outOfFuel
  | n + 1, s =>
    match jsonNext fin s with
    | .ok .objEnd r => .ok () r
    | .ok (.str _) r =>
      match jsonNext fin r with
      | .ok t r =>
        match t with
        | .arrBegin =>
          match jsonSkipArray fin n r with
          | .ok _ r' => jsonSkipObject fin n r'
          | e => e
        | .objBegin =>
          match jsonSkipObject fin n r with
          | .ok _ r' => jsonSkipObject fin n r'
          | e => e
        | .arrEnd => .error r
        | .objEnd => .error r
        | _ => jsonSkipObject fin n r
      | .error r => .error r
      | .loops => .loops
      | .undefined => .undefined
      | .outOfFuel => .outOfFuel
    | .ok _ r => .error r
    | .error r => .error r
    | .loops => .loops
    | .undefined => .undefined
    | .outOfFuel => .outOfFuel
end

/-- json.cc:367-401 `json_skip`. -/
def jsonSkip (fin : JEnd) (fuel : Nat) (s : List JItem) : JRes Unit :=
  match jsonNext fin s with
  | .ok t r =>
    match t with
    | .arrBegin => jsonSkipArray fin fuel r
    | .objBegin => jsonSkipObject fin fuel r
    | .arrEnd => .error r
    | .objEnd => .error r
    | _ => .ok () r
  | .error r => .error r
  | .loops => .loops
  | .undefined => .undefined
  | .outOfFuel => .outOfFuel

/-- json.cc:262-277 `json_read_string`. -/
def jsonReadString (fin : JEnd) (s : List JItem) : JRes Str :=
  match jsonNext fin s with
  | .ok (.str t) r => .ok t r
  | .ok _ r => .error r
  | .error r => .error r
  | .loops => .loops
  | .undefined => .undefined
  | .outOfFuel => .outOfFuel

/-- json.cc:232-245 `json_read_array_begin`, 247-260 `json_read_object_begin`. -/
def jsonExpect (fin : JEnd) (want : JTok) (s : List JItem) : JRes Unit :=
  match jsonNext fin s with
  | .ok t r => if t = want then .ok () r else .error r
  | .error r => .error r
  | .loops => .loops
  | .undefined => .undefined
  | .outOfFuel => .outOfFuel

end Clip
