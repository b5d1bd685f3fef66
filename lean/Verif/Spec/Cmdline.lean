import Verif.Model.Flags
/-!
# Specification: command lines
-/
namespace Clip.Cmdline

/-- What a user can put on a command line; flags are named by their number in the list of declared flags. -/
inductive Item where
  /-- an argument that is no option -/
  | positional (s : Str)
  /-- `--name` of a switch -/
  | longSwitch (i : Nat)
  /-- `--name value` -/
  | longValue (i : Nat) (v : Str)
  /-- `--name=value` -/
  | longEq (i : Nat) (v : Str)
  /-- `-abc` of switches -/
  | switches (is : List Nat)
  /-- `-abcf value`: any number of switches, then a flag with a value -/
  | shortValue (is : List Nat) (i : Nat) (v : Str)
  /-- `-abcfvalue` -/
  | shortGlued (is : List Nat) (i : Nat) (v : Str)

/-- Short and long names that can be used: distinct, printable without a special meaning. -/
structure GoodFlags (flags : List Flag) : Prop where
  short_ok : ∀ f ∈ flags, ∀ c, f.short = some c → c ≠ ':' ∧ c ≠ ';' ∧ c ≠ '-' ∧ c ≠ '?'
  short_distinct : flags.Pairwise fun f g => ∀ c, f.short = some c → g.short ≠ some c
  long_ok : ∀ f ∈ flags, f.long ≠ [] ∧ '=' ∉ f.long
  long_distinct : flags.Pairwise fun f g => f.long ≠ g.long

/-- Flag `i` is a declared switch with a short name. -/
def IsShortSwitch (flags : List Flag) (i : Nat) : Prop := ∃ f c, flags[i]? = some f ∧ f.short = some c ∧ f.hasArg = false

/-- The item can be used with these flags. -/
def Item.Valid (flags : List Flag) : Item → Prop
  | .positional s => s = ['-'] ∨ s.head? ≠ some '-'
  | .longSwitch i => ∃ f, flags[i]? = some f ∧ f.hasArg = false
  | .longValue i _ => ∃ f, flags[i]? = some f ∧ f.hasArg = true
  | .longEq i _ => ∃ f, flags[i]? = some f ∧ f.hasArg = true
  | .switches is => is ≠ [] ∧ ∀ i ∈ is, IsShortSwitch flags i
  | .shortValue is i _ => (∀ i ∈ is, IsShortSwitch flags i) ∧ ∃ f c, flags[i]? = some f ∧ f.short = some c ∧ f.hasArg = true
  | .shortGlued is i v => (∀ i ∈ is, IsShortSwitch flags i) ∧ (∃ f c, flags[i]? = some f ∧ f.short = some c ∧ f.hasArg = true) ∧
      v ≠ []

def longName (flags : List Flag) (i : Nat) : Str := (flags[i]?.map Flag.long).getD []

def shortName (flags : List Flag) (i : Nat) : Char := (flags[i]?.bind Flag.short).getD ' '

/-- The arguments the item stands for. -/
def Item.args (flags : List Flag) : Item → List Str
  | .positional s => [s]
  | .longSwitch i => ['-' :: '-' :: longName flags i]
  | .longValue i v => ['-' :: '-' :: longName flags i, v]
  | .longEq i v => ['-' :: '-' :: (longName flags i ++ '=' :: v)]
  | .switches is => ['-' :: is.map (shortName flags)]
  | .shortValue is i v => ['-' :: (is.map (shortName flags) ++ [shortName flags i]), v]
  | .shortGlued is i v => ['-' :: (is.map (shortName flags) ++ shortName flags i :: v)]

/-- The flags the item sets, with their values. -/
def Item.sets : Item → List (Nat × Option Str)
  | .positional _ => []
  | .longSwitch i => [(i, none)]
  | .longValue i v => [(i, some v)]
  | .longEq i v => [(i, some v)]
  | .switches is => is.map (·, none)
  | .shortValue is i v => is.map (·, none) ++ [(i, some v)]
  | .shortGlued is i v => is.map (·, none) ++ [(i, some v)]

/-- The arguments left over. -/
def Item.rest : Item → List Str
  | .positional s => [s]
  | _ => []

end Clip.Cmdline
