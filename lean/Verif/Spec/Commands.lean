import Verif.Model.Eval
/-!
# Executing a list of commands (specification)
-/
namespace Clip.Commands

variable {σ ε : Type}

/-- All commands of the list are known and are executed, in order, without error, taking the context from
`s` to `s'`. -/
inductive Executed (fns : HandlerMap σ ε) : List Expr → σ → σ → Prop
  | nil (s) : Executed fns [] s s
  | cons {name args rest s s₁ s' h} : name.isValue = true → fns name.getValue = some h →
      h args s = (s₁, none) → Executed fns rest s₁ s' →
      Executed fns (.list (name :: args) :: rest) s s'

/-- The command cannot be executed in context `s`: the error, and the context after it. -/
inductive Fails (fns : HandlerMap σ ε) : Expr → σ → σ → WalkErr ε → Prop
  | notList {e s} : e.isList = false → Fails fns e s s .notList
  | empty {s} : Fails fns (.list []) s s .notLiteral
  | noName {l args s} : Fails fns (.list (.list l :: args)) s s .notLiteral
  | unknown {name args s} : name.isValue = true → fns name.getValue = none →
      Fails fns (.list (name :: args)) s s (.invalidCommand name.getValue)
  | handler {name args s s' h e} : name.isValue = true → fns name.getValue = some h →
      h args s = (s', some e) → Fails fns (.list (name :: args)) s s' (.handler e)

/-- The command has the form `(name args...)`. -/
def isCommand : Expr → Bool
  | .list (n :: _) => n.isValue
  | _ => false

/-- The command is in the table. -/
def isKnown (fns : HandlerMap σ ε) : Expr → Bool
  | .list (n :: _) => n.isValue && (fns n.getValue).isSome
  | _ => false

/-- The commands after the last unknown one (nothing if there is no unknown command). -/
def trailing (fns : HandlerMap σ ε) : List Expr → List Expr
  | [] => []
  | e :: es => if isKnown fns e then trailing fns es
               else if es.all (isKnown fns) then es else trailing fns es

/-- A command `(name args...)`. -/
def cmd (name : String) (args : List Expr) : Expr := .list (.literal name.toList :: args)

end Clip.Commands
