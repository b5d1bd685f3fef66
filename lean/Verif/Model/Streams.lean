import Verif.Model.Outcome
/-!
# Model of `src/utils/outputstream.cc`

The operating system is a parameter.  Formatting (`vsnprintf`) is not modelled: `printf` is given the formatted text.
Buffers are byte sequences (C35), so that string and buffer streams are the same here.
-/
namespace Clip.Streams

/-- What streams act on: the open descriptors, what was written to each of them, and the string of a string stream. -/
structure World where
  isOpen : Nat → Bool
  file : Nat → Str
  text : Str

/-- The system calls: `write` (the number of bytes taken, or an error), `vdprintf` (the number of bytes written before it
returned, and whether it succeeded), `open` (a descriptor, or an error). -/
structure Sys where
  write : World → Nat → Str → Option Nat
  print : World → Nat → Str → Nat × Bool
  openAt : World → Str → Option Nat

/-- The exceptions raised. -/
inductive Raised where | io | overflow
  deriving DecidableEq

/-- outputstream.h:62-105 `FileOutputStream` (descriptor, `close_on_destroy_`), 107-163 `StringOutputStream`,
`BufferOutputStream`. -/
inductive Stream where
  | file (fd : Nat) (closes : Bool)
  | string

def World.put (w : World) (fd : Nat) (data : Str) : World :=
  { w with file := fun k => if k = fd then w.file k ++ data else w.file k }

/-- outputstream.cc:101-111 `FileOutputStream::write`, 132-135 `StringOutputStream::write`, 144-147
`BufferOutputStream::write`; also 36-42, the two other `write`s. -/
def Stream.write (S : Sys) (w : World) (data : Str) : Stream → World × Except Raised Nat
  | .file fd _ => match S.write w fd data with
    | none => (w, .error .io)
    | some n => (w.put fd (data.take n), .ok n)
  | .string => ({ w with text := w.text ++ data }, .ok data.length)

/-- outputstream.cc:45-64 `OutputStream::printf` (used by string and buffer streams), 113-124 `FileOutputStream::printf`. -/
def Stream.print (S : Sys) (w : World) (text : Str) : Stream → World × Except Raised Nat
  | .file fd _ => match S.print w fd text with
    | (n, true) => (w.put fd (text.take n), .ok n)
    | (n, false) => (w.put fd (text.take n), .error .io)
  | .string =>
    if text.length < 8192 then
      match Stream.write S w text .string with
      | (w', .ok _) => (w', .ok text.length)
      | (w', .error e) => (w', .error e)
    else (w, .error .overflow)

/-- outputstream.cc:66-88 `FileOutputStream::openFile`; the flags only matter to the system. -/
def openFile (S : Sys) (w : World) (path : Str) : World × Except Raised Stream :=
  match S.openAt w path with
  | none => (w, .error .io)
  | some fd =>
    let w' := { w with isOpen := fun k => k = fd || w.isOpen k }
    if fd < 1 then (w', .error .io) else (w', .ok (.file fd true))

/-- outputstream.cc:26-29 `getStdout`. -/
def stdoutStream : Stream := .file 1 false

/-- outputstream.cc:31-34 `getStderr`. -/
def stderrStream : Stream := .file 2 false

/-- outputstream.cc:95-99 `~FileOutputStream`; the other streams have nothing to release. -/
def Stream.destroy (w : World) : Stream → World
  | .file fd true => { w with isOpen := fun k => k ≠ fd && w.isOpen k }
  | _ => w

end Clip.Streams
