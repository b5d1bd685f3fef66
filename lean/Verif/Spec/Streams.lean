import Verif.Model.Streams
/-!
# Output streams (specification)
-/
namespace Clip.Streams

/-- What a program does with a stream. -/
inductive Action where
  | write (data : Str)
  | print (text : Str)

/-- The text of an action. -/
def Action.bytes : Action → Str
  | .write d => d
  | .print t => t

/-- An action succeeds and returns a number. -/
def Action.Does (S : Sys) (s : Stream) (a : Action) (w w' : World) (n : Nat) : Prop :=
  match a with
  | .write d => s.write S w d = (w', .ok n)
  | .print t => s.print S w t = (w', .ok n)

/-- Actions one after the other, all successful; with the numbers returned. -/
inductive AllDo (S : Sys) (s : Stream) : List Action → World → World → List Nat → Prop
  | nil (w) : AllDo S s [] w w []
  | cons {a as w w' w'' n ns} : a.Does S s w w' n → AllDo S s as w' w'' ns → AllDo S s (a :: as) w w'' (n :: ns)

/-- The system behaves: it does not write more than it is given, `vdprintf` succeeds only if it has written everything, and a
descriptor is given only once. -/
structure Sys.Sane (S : Sys) : Prop where
  write : ∀ w fd d n, S.write w fd d = some n → n ≤ d.length
  print : ∀ w fd t n, S.print w fd t = (n, true) → n = t.length
  openAt : ∀ w p fd, S.openAt w p = some fd → w.isOpen fd = false

/-- The text in the target of a stream. -/
def Stream.target (w : World) : Stream → Str
  | .file fd _ => w.file fd
  | .string => w.text

end Clip.Streams
