import Verif.Model.Sexpr
/-!
# A reader for XML documents

The part of XML 1.0 that matters here: processing instructions, comments, elements with attributes, character data and
the five predefined entities.  The reader refuses anything else: raw `<` in attribute values, unknown entities,
attributes that are not separated or occur twice.
-/
namespace Clip.Xml

/-- What a document consists of, in the order of the text. -/
inductive Event where
  | pi (text : Str)
  | comment (text : Str)
  | opening (name : Str) (attrs : List (Str × Str))
  | closing (name : Str)
  | empty (name : Str) (attrs : List (Str × Str))
  | text (text : Str)
  deriving DecidableEq, Repr

/-- Predefined entities. -/
def entities : List (Str × Char) :=
  [("amp".toList, '&'), ("lt".toList, '<'), ("gt".toList, '>'), ("quot".toList, '"'), ("apos".toList, '\'')]

/-- Character data with entities replaced; the first argument is the name read after a `&`, in reverse. -/
def unescape : Option Str → Str → Option Str
  | none, [] => some []
  | some _, [] => none
  | none, c :: cs =>
    if c = '&' then unescape (some []) cs else if c = '<' then none else (unescape none cs).map (c :: ·)
  | some n, c :: cs =>
    if c = ';' then
      match entities.lookup n.reverse with
      | some e => (unescape none cs).map (e :: ·)
      | none => none
    else unescape (some (c :: n)) cs

/-- Characters of names. -/
def nameChar (c : Char) : Bool := c.isAlphanum || c == '-' || c == '_' || c == ':' || c == '.'

def space (c : Char) : Bool := c == ' ' || c == '\n' || c == '\t' || c == '\r'

/-- Where the reader is. -/
inductive St where
  | data (acc : Str)                                                       -- character data, reversed
  | lt                                                                     -- after `<`
  | pi (acc : Str)                                                         -- after `<?`, reversed
  | bang (acc : Str)                                                       -- after `<!`, reversed
  | name (n : Str)                                                         -- in the name of an element, reversed
  | gap (n : Str) (attrs : List (Str × Str))                               -- after white space in a tag
  | attr (n : Str) (attrs : List (Str × Str)) (a : Str)                    -- in the name of an attribute, reversed
  | eq (n : Str) (attrs : List (Str × Str)) (a : Str)                      -- after `=`
  | val (q : Char) (n : Str) (attrs : List (Str × Str)) (a : Str) (v : Str)  -- in a value quoted by `q`, reversed
  | post (n : Str) (attrs : List (Str × Str))                              -- after the closing quote
  | slash (n : Str) (attrs : List (Str × Str))                             -- after `/` in a tag
  | close (n : Str)                                                        -- after `</`, reversed
  deriving DecidableEq, Repr

/-- The character data read so far. -/
def flush (acc : Str) : Option (List Event) :=
  if acc = [] then some [] else (unescape none acc.reverse).map fun t => [.text t]

/-- One character. -/
def step : St → Char → Option (St × List Event)
  | .data acc, c => if c = '<' then (flush acc).map fun e => (.lt, e) else some (.data (c :: acc), [])
  | .lt, c =>
    if c = '?' then some (.pi [], []) else if c = '!' then some (.bang [], [])
    else if c = '/' then some (.close [], []) else if nameChar c then some (.name [c], []) else none
  | .pi acc, c =>
    if c = '>' ∧ acc.head? = some '?' then some (.data [], [.pi (acc.drop 1).reverse]) else some (.pi (c :: acc), [])
  | .bang acc, c =>
    if c = '>' ∧ 4 ≤ acc.length ∧ acc.take 2 = ['-', '-'] then
      if acc.reverse.take 2 = ['-', '-'] then some (.data [], [.comment ((acc.drop 2).reverse.drop 2)]) else none
    else some (.bang (c :: acc), [])
  | .name n, c =>
    if nameChar c then some (.name (c :: n), [])
    else if space c then some (.gap n.reverse [], [])
    else if c = '/' then some (.slash n.reverse [], [])
    else if c = '>' then some (.data [], [.opening n.reverse []]) else none
  | .gap n attrs, c =>
    if space c then some (.gap n attrs, [])
    else if c = '/' then some (.slash n attrs, [])
    else if c = '>' then some (.data [], [.opening n attrs])
    else if nameChar c then some (.attr n attrs [c], []) else none
  | .attr n attrs a, c =>
    if nameChar c then some (.attr n attrs (c :: a), []) else if c = '=' then some (.eq n attrs a.reverse, []) else none
  | .eq n attrs a, c => if c = '"' ∨ c = '\'' then some (.val c n attrs a [], []) else none
  | .val q n attrs a v, c =>
    if c = q then
      if (attrs.map Prod.fst).contains a then none
      else (unescape none v.reverse).map fun t => (.post n (attrs ++ [(a, t)]), [])
    else some (.val q n attrs a (c :: v), [])
  | .post n attrs, c =>
    if space c then some (.gap n attrs, [])
    else if c = '/' then some (.slash n attrs, [])
    else if c = '>' then some (.data [], [.opening n attrs]) else none
  | .slash n attrs, c => if c = '>' then some (.data [], [.empty n attrs]) else none
  | .close n, c =>
    if nameChar c then some (.close (c :: n), [])
    else if c = '>' ∧ n ≠ [] then some (.data [], [.closing n.reverse]) else none

/-- A text, from a state on. -/
def run : St → Str → Option (St × List Event)
  | st, [] => some (st, [])
  | st, c :: cs =>
    match step st c with
    | none => none
    | some (st, e) => (run st cs).map fun r => (r.1, e ++ r.2)

/-- Elements are closed in the right order; the first argument are the open ones. -/
def nested : List Str → List Event → Bool
  | stack, [] => stack.isEmpty
  | stack, .opening n _ :: es => nested (n :: stack) es
  | n :: stack, .closing m :: es => n == m && nested stack es
  | [], .closing _ :: _ => false
  | stack, _ :: es => nested stack es

/-- The contents of a well-formed document. -/
def read (s : Str) : Option (List Event) :=
  match run (.data []) s with
  | some (.data acc, es) =>
    match flush acc with
    | some e => if nested [] (es ++ e) then some (es ++ e) else none
    | none => none
  | _ => none

/-- The value of an attribute. -/
def value (attrs : List (Str × Str)) (a : Str) : Option Str := attrs.lookup a

end Clip.Xml
