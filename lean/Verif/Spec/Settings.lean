import Verif.Spec.Commands
/-!
# Blocks of settings (specification)

A block is a list of commands `(name arguments...)`.  Of several commands of the same name the last one counts.
-/
namespace Clip.Settings

/-- The name of a command, if it has one. -/
def nameOf : Expr → Option Str
  | .list (.literal n :: _) => some n
  | .list (.value n :: _) => some n
  | _ => none

/-- The arguments of a command. -/
def argsOf : Expr → List Expr
  | .list (_ :: args) => args
  | _ => []

/-- The arguments of the last command of this name. -/
def lastArgs (name : Str) (cmds : List Expr) : Option (List Expr) :=
  ((cmds.filter fun c => nameOf c == some name).getLast?).map argsOf

/-- The value a setting has after a block: what the last command of this name says, or else what it was before. -/
def Final {α : Type} (read : List Expr → α → Prop) (name : Str) (cmds : List Expr) (before after : α) : Prop :=
  match lastArgs name cmds with
  | none => after = before
  | some args => read args after

/-- All the arguments of the commands of this name, in order. -/
def allArgs (name : Str) (cmds : List Expr) : List (List Expr) :=
  (cmds.filter fun c => nameOf c == some name).map argsOf

end Clip.Settings
