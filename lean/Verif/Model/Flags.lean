import Verif.Model.Outcome
/-!
# Model of `src/utils/flagparser.cc`

`getopt_long` is the C library's function; it is modelled after its documentation and the GNU implementation: options and
other arguments may be mixed (`POSIXLY_CORRECT` is not set), `--` ends the options, long names may be abbreviated, and
`argv` is permuted so that the arguments that are no options come last, in order.  Special meanings of the characters
`+`, `-`, `:` at the front of the option text and of `W;` are not modelled; flags with such short names are excluded in
the theorems.
-/
namespace Clip

/-- flagparser.h:22-27 `FlagInfo`; `short = none` stands for 0.  The callback is modelled by what it is called with. -/
structure Flag where
  short : Option Char
  long : Str
  hasArg : Bool
  deriving DecidableEq, Repr

/-- flagparser.cc:88-100: the option text. -/
def optsShort (flags : List Flag) : Str :=
  flags.flatMap fun f => match f.short with
    | none => []
    | some c => c :: if f.hasArg then [':'] else []

/-- One call of `getopt_long`: it returns a short option, the index of a long option, or `?`. -/
inductive OptEvent where
  | short (c : Char) (arg : Option Str)
  | long (i : Nat) (arg : Option Str)
  | bad
  deriving DecidableEq, Repr

/-- C library: `strchr(optstring, c)` and whether a colon follows; `:` and `;` are no options. -/
def lookupShort (c : Char) : Str → Option Bool
  | [] => none
  | d :: rest => if c = ':' ∨ c = ';' then none
    else if d = c then some (rest.head? == some ':')
    else lookupShort c rest

/-- An option that still needs an argument. -/
inductive OptPending where
  | short (c : Char)
  | long (i : Nat)
  deriving DecidableEq, Repr

def OptPending.event (v : Str) : OptPending → OptEvent
  | .short c => .short c (some v)
  | .long i => .long i (some v)

/-- C library: the characters of an argument `-abc`. -/
def scanShort (opts : Str) : Str → List OptEvent × Option OptPending
  | [] => ([], none)
  | c :: cs => match lookupShort c opts with
    | none => let r := scanShort opts cs; (.bad :: r.1, r.2)
    | some false => let r := scanShort opts cs; (.short c none :: r.1, r.2)
    | some true => if cs = [] then ([], some (.short c)) else ([.short c (some cs)], none)

/-- C library: the abbreviated option a name stands for: the first flag it is a prefix of, unless another such flag
differs in whether it takes an argument. -/
def lookupAbbrev (flags : List Flag) (name : Str) : Option Nat :=
  match flags.findIdx? (fun f => name.isPrefixOf f.long) with
  | none => none
  | some i =>
    if flags.all fun f => !name.isPrefixOf f.long || (flags[i]?.map Flag.hasArg == some f.hasArg) then some i else none

/-- C library: an exact match is preferred. -/
def lookupLong (flags : List Flag) (name : Str) : Option Nat :=
  match flags.findIdx? (fun f => f.long == name) with
  | some i => some i
  | none => lookupAbbrev flags name

/-- C library: an argument `--text`. -/
def scanLong (flags : List Flag) (text : Str) : List OptEvent × Option OptPending :=
  let name := text.takeWhile (· != '=')
  match lookupLong flags name with
  | none => ([.bad], none)
  | some i =>
    let hasArg := (flags[i]?.map Flag.hasArg).getD false
    match text.dropWhile (· != '=') with
    | _ :: value => if hasArg then ([.long i (some value)], none) else ([.bad], none)
    | [] => if hasArg then ([], some (.long i)) else ([.long i none], none)

/-- C library: all calls of `getopt_long` on the arguments after `argv[0]`, and the arguments from `optind` on. -/
def getopt (flags : List Flag) : Option OptPending → List Str → List OptEvent × List Str
  | some _, [] => ([.bad], [])
  | some p, v :: rest => let r := getopt flags none rest; (p.event v :: r.1, r.2)
  | none, [] => ([], [])
  | none, a :: rest => match a with
    | ['-', '-'] => ([], rest)
    | '-' :: '-' :: text =>
      let s := scanLong flags text
      let r := getopt flags s.2 rest
      (s.1 ++ r.1, r.2)
    | '-' :: c :: cs =>
      let s := scanShort (optsShort flags) (c :: cs)
      let r := getopt flags s.2 rest
      (s.1 ++ r.1, r.2)
    | _ => let r := getopt flags none rest; (r.1, a :: r.2)

/-- flagparser.cc:118-129: the flag whose callback is called, and its argument. -/
def eventFlag (flags : List Flag) : OptEvent → Option (Nat × Option Str)
  | .long i arg => some (i, arg)
  | .short c arg => (flags.findIdx? fun f => f.short == some c).map (·, arg)
  | .bad => (flags.findIdx? fun f => f.short == some '?').map (·, none)

/-- flagparser.cc:102-135: the callbacks called; `none` is the error "invalid option". -/
def runEvents (flags : List Flag) : List OptEvent → Option (List (Nat × Option Str))
  | [] => some []
  | e :: es => match eventFlag flags e with
    | none => none
    | some c => (runEvents flags es).map (c :: ·)

/-- flagparser.cc:67-146 `flags_parse`, on the arguments after `argv[0]`: the callbacks called and `args_out`. -/
def flagsParse (flags : List Flag) (argv : List Str) : Option (List (Nat × Option Str) × List Str) :=
  let r := getopt flags none argv
  (runEvents flags r.1).map (·, r.2)

/-- flagparser.cc:25-38 `flags_add_string`: the variable after the callbacks. -/
def stringFlag (i : Nat) (init : Str) (calls : List (Nat × Option Str)) : Str :=
  calls.foldl (fun v c => if c.1 = i then c.2.getD [] else v) init

/-- flagparser.cc:40-53 `flags_add_stringv`. -/
def stringvFlag (i : Nat) (init : List Str) (calls : List (Nat × Option Str)) : List Str :=
  calls.foldl (fun v c => if c.1 = i then v ++ [c.2.getD []] else v) init

/-- flagparser.cc:55-68 `flags_add_switch`. -/
def switchFlag (i : Nat) (init : Bool) (calls : List (Nat × Option Str)) : Bool :=
  calls.foldl (fun v c => if c.1 = i then true else v) init

end Clip
