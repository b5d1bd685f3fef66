import Verif.Model.Handles
/-!
# Files (specification)
-/
namespace Clip.Handles

/-- The contents of the file with this name. -/
def Os.file (os : Os) (name : Str) : Option Bytes := (os.names name).map os.content

/-- A descriptor is open. -/
def Os.isOpen (os : Os) (fd : Nat) : Prop := os.fds fd ≠ none

/-- The system keeps its books: names and descriptions lead to files, and descriptors to descriptions. -/
structure Os.Sound (os : Os) : Prop where
  names : ∀ n k, os.names n = some k → k < os.data.length
  fds : ∀ fd i, os.fds fd = some i → i < os.descs.length
  nodes : ∀ d ∈ os.descs, d.node < os.data.length

/-- The system behaves: it gives descriptors that are not in use, and does not transfer more than it is asked for and, when
reading, than there is. -/
structure Sys.Sane (S : Sys) : Prop where
  openAt : ∀ os name fd, S.openAt os name = some fd → os.fds fd = none
  dupTo : ∀ os fd fd', S.dupTo os fd = some fd' → os.fds fd' = none
  read : ∀ os fd n k d, S.readCount os fd n = some k → os.desc fd = some d → k ≤ n ∧ d.offset + k ≤ max d.offset (os.content d.node).length
  write : ∀ os fd n k, S.writeCount os fd n = some k → k ≤ n

/-- Reading gives everything there is, up to the number of bytes asked for. -/
def Sys.ReadsAll (S : Sys) : Prop := ∀ os fd n k d, S.readCount os fd n = some k → os.desc fd = some d →
  k = min n ((os.content d.node).length - d.offset)

/-- What a file is read or written through: its contents, the position, and what is allowed. -/
structure View where
  content : Bytes
  position : Nat
  readable : Bool
  writable : Bool
  deriving DecidableEq

/-- What a `File` stands for. -/
def Handle.view (h : Handle) (os : Os) : Option View :=
  (h.fd.bind os.desc).map fun d => ⟨os.content d.node, d.offset, d.readable, d.writable⟩

/-! ## Programs with several files -/

/-- What a program does with its `File` objects, which are numbered. -/
inductive Act where
  | openFile (i : Nat) (name : Str) (fl : Flags)
  | moveNew (i j : Nat)
  | clone (i j : Nat)
  | destroy (i : Nat)
  | seekTo (i pos : Nat)
  | read (i n : Nat)
  | write (i : Nat) (bs : Bytes)
  | truncate (i n : Nat)

/-- The objects that exist. -/
abbrev Objects := Nat → Option Handle

/-- An object is made. -/
def Objects.put (o : Objects) (i : Nat) (h : Handle) : Objects := fun k => if k = i then some h else o k

/-- An object ceases to exist. -/
def Objects.drop (o : Objects) (i : Nat) : Objects := fun k => if k = i then none else o k

/-- One step of a program.  An object is made only where there is none, and used only while it exists.  If the constructor
of an object raises an exception, it does not exist. -/
inductive Does (S : Sys) : Act → Os × Objects → Os × Objects → Prop
  | opened {i name fl os o os' h} : o i = none → openFile S os name fl = (os', .ok h) →
      Does S (.openFile i name fl) (os, o) (os', o.put i h)
  | refused {i name fl os o os' e} : o i = none → openFile S os name fl = (os', .error e) →
      Does S (.openFile i name fl) (os, o) (os', o)
  | moved {i j os o h} : o i = none → o j = some h →
      Does S (.moveNew i j) (os, o) (os, (o.put i h.moveNew.1).put j h.moveNew.2)
  | cloned {i j os o os' h h'} : o i = none → o j = some h → h.clone S os = (os', .ok h') →
      Does S (.clone i j) (os, o) (os', o.put i h')
  | uncloned {i j os o os' h e} : o i = none → o j = some h → h.clone S os = (os', .error e) →
      Does S (.clone i j) (os, o) (os', o)
  | destroyed {i os o h} : o i = some h → Does S (.destroy i) (os, o) (h.destroy os, o.drop i)
  | sought {i pos os o os' h r} : o i = some h → h.seekTo S os pos = (os', r) → Does S (.seekTo i pos) (os, o) (os', o)
  | done {i n os o os' h r} : o i = some h → h.read S os n = (os', r) → Does S (.read i n) (os, o) (os', o)
  | written {i bs os o os' h r} : o i = some h → h.write S os bs = (os', r) → Does S (.write i bs) (os, o) (os', o)
  | truncated {i n os o os' h r} : o i = some h → h.truncate S os n = (os', r) → Does S (.truncate i n) (os, o) (os', o)

/-- A program. -/
inductive AllDo (S : Sys) : List Act → Os × Objects → Os × Objects → Prop
  | nil (s) : AllDo S [] s s
  | cons {a as s s' s''} : Does S a s s' → AllDo S as s' s'' → AllDo S (a :: as) s s''

end Clip.Handles
