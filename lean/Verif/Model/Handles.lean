import Verif.Model.Outcome
/-!
# Model of `src/utils/file.cc` and of the functions of `src/utils/fileutil.cc` that read and write files

The operating system follows POSIX: names lead to files, descriptors to descriptions of open files, which have a position.
`dup` gives a descriptor of the same description.  How many bytes a call transfers, which descriptor is given, and whether a
call fails are decided by the system (`Sys`).  Names are not resolved (there are no directories here), and nobody else changes
files or descriptors.
-/
namespace Clip.Handles

abbrev Bytes := List UInt8

/-- What a descriptor stands for. -/
structure Desc where
  node : Nat
  offset : Nat
  readable : Bool
  writable : Bool

/-- The state of the system.  Files and descriptions are numbered, and numbers are not used again.  `badClose` counts the
`close` calls for descriptors that are not open. -/
structure Os where
  names : Str → Option Nat
  data : List Bytes
  descs : List Desc
  fds : Nat → Option Nat
  badClose : Nat

/-- What the system decides: the descriptor for `open` and `dup` (or an error), the number of bytes that `read` and `write`
transfer (or an error), and whether `fstat`, `lseek` and `ftruncate` succeed. -/
structure Sys where
  openAt : Os → Str → Option Nat
  dupTo : Os → Nat → Option Nat
  readCount : Os → Nat → Nat → Option Nat
  writeCount : Os → Nat → Nat → Option Nat
  stat : Os → Nat → Bool
  seek : Os → Nat → Nat → Bool
  trunc : Os → Nat → Nat → Bool

/-- The contents of a file. -/
def Os.content (os : Os) (node : Nat) : Bytes := os.data.getD node []

/-- A new description with this descriptor. -/
def Os.push (os : Os) (fd : Nat) (d : Desc) : Os :=
  { os with descs := os.descs ++ [d], fds := fun k => if k = fd then some os.descs.length else os.fds k }

/-- The description of a descriptor. -/
def Os.desc (os : Os) (fd : Nat) : Option Desc := (os.fds fd).bind fun i => os.descs[i]?

/-- The position of a description is changed. -/
def Os.moveTo (os : Os) (fd pos : Nat) : Os :=
  match os.fds fd, os.desc fd with
  | some i, some d => { os with descs := os.descs.set i { d with offset := pos } }
  | _, _ => os

/-- `open(2)`. -/
def sysOpen (S : Sys) (os : Os) (name : Str) (rd wr creat excl trunc : Bool) : Option (Os × Nat) :=
  match S.openAt os name with
  | none => none
  | some fd => match os.names name with
    | some k =>
      if creat && excl then none
      else
        let os' := if trunc then { os with data := os.data.set k [] } else os
        some (os'.push fd ⟨k, 0, rd, wr⟩, fd)
    | none =>
      if creat then
        let os' := { os with names := fun n => if n = name then some os.data.length else os.names n, data := os.data ++ [[]] }
        some (os'.push fd ⟨os.data.length, 0, rd, wr⟩, fd)
      else none

/-- `unlink(2)`: the file stays as long as it is open. -/
def sysUnlink (os : Os) (name : Str) : Os := { os with names := fun n => if n = name then none else os.names n }

/-- `close(2)`. -/
def sysClose (os : Os) (fd : Nat) : Os :=
  match os.fds fd with
  | some _ => { os with fds := fun k => if k = fd then none else os.fds k }
  | none => { os with badClose := os.badClose + 1 }

/-- Bytes are written over the contents from a position on; a hole before it is filled with zeros. -/
def overwrite (old : Bytes) (pos : Nat) (new : Bytes) : Bytes :=
  if new = [] then old
  else old.take pos ++ List.replicate (pos - old.length) 0 ++ new ++ old.drop (pos + new.length)

/-- The exceptions of `openFile` and of the other functions. -/
inductive Raised where | illegal | io
  deriving DecidableEq

/-- file.h:28-64 `kOpenFlags`. -/
structure Flags where
  read : Bool := false
  write : Bool := false
  create : Bool := false
  createOrOpen : Bool := false
  append : Bool := false
  truncate : Bool := false
  autoDelete : Bool := false
  allowFork : Bool := false
  deriving DecidableEq

/-- file.h:96-97: a `File`; `fd_ = -1` is `none`. -/
structure Handle where
  fd : Option Nat
  flags : Flags
  deriving DecidableEq

/-- file.cc:24-68 `openFile`.  `O_APPEND` and `O_ALLOWFORK` are not looked at. -/
def openFile (S : Sys) (os : Os) (name : Str) (fl : Flags) : Os × Except Raised Handle :=
  if !fl.read && !fl.write then (os, .error .illegal)
  else
    let creat := fl.createOrOpen || fl.create
    let excl := !fl.createOrOpen && fl.create
    match sysOpen S os name fl.read fl.write creat excl fl.truncate with
    | none => (os, .error .io)
    | some (os', fd) => (if fl.autoDelete then sysUnlink os' name else os', .ok ⟨some fd, fl⟩)

/-- file.cc:72-76 `~File`. -/
def Handle.destroy (h : Handle) (os : Os) : Os :=
  match h.fd with
  | some fd => sysClose os fd
  | none => os

/-- file.cc:78-80 `File(File&&)`: the new object, and what is left of the old one. -/
def Handle.moveNew (h : Handle) : Handle × Handle := (h, { h with fd := none })

/-- file.cc:86-88 `isWritable`. -/
def Handle.isWritable (h : Handle) : Bool := h.flags.write

/-- file.cc:90-98 `size`. -/
def Handle.size (h : Handle) (S : Sys) (os : Os) : Except Raised Nat :=
  match h.fd with
  | none => .error .io
  | some fd => match os.desc fd with
    | none => .error .io
    | some d => if S.stat os fd then .ok (os.content d.node).length else .error .io

/-- file.cc:100-104 `seekTo`. -/
def Handle.seekTo (h : Handle) (S : Sys) (os : Os) (pos : Nat) : Os × Except Raised Unit :=
  match h.fd with
  | none => (os, .error .io)
  | some fd => match os.desc fd with
    | none => (os, .error .io)
    | some _ => if S.seek os fd pos then (os.moveTo fd pos, .ok ()) else (os, .error .io)

/-- file.cc:106-118 `read`: one `read(2)`; what was read is returned here. -/
def Handle.read (h : Handle) (S : Sys) (os : Os) (n : Nat) : Os × Except Raised Bytes :=
  match h.fd with
  | none => (os, .error .io)
  | some fd => match os.desc fd with
    | none => (os, .error .io)
    | some d =>
      if d.readable then match S.readCount os fd n with
        | none => (os, .error .io)
        | some k => (os.moveTo fd (d.offset + k), .ok (((os.content d.node).drop d.offset).take k))
      else (os, .error .io)

/-- file.cc:120-130 `write`: one `write(2)`, which must transfer everything. -/
def Handle.write (h : Handle) (S : Sys) (os : Os) (bs : Bytes) : Os × Except Raised Unit :=
  match h.fd with
  | none => (os, .error .io)
  | some fd => match os.desc fd with
    | none => (os, .error .io)
    | some d =>
      if d.writable then match S.writeCount os fd bs.length with
        | none => (os, .error .io)
        | some k =>
          let os' := { os with data := os.data.set d.node (overwrite (os.content d.node) d.offset (bs.take k)) }
          (os'.moveTo fd (d.offset + k), if k = bs.length then .ok () else .error .io)
      else (os, .error .io)

/-- file.cc:132-140 `clone`. -/
def Handle.clone (h : Handle) (S : Sys) (os : Os) : Os × Except Raised Handle :=
  match h.fd with
  | none => (os, .error .io)
  | some fd => match os.fds fd with
    | none => (os, .error .io)
    | some i => match S.dupTo os fd with
      | none => (os, .error .io)
      | some fd' => ({ os with fds := fun k => if k = fd' then some i else os.fds k }, .ok ⟨some fd', h.flags⟩)

/-- file.cc:142-146 `truncate`. -/
def Handle.truncate (h : Handle) (S : Sys) (os : Os) (n : Nat) : Os × Except Raised Unit :=
  match h.fd with
  | none => (os, .error .io)
  | some fd => match os.desc fd with
    | none => (os, .error .io)
    | some d =>
      if d.writable && S.trunc os fd n then
        let new := (os.content d.node).take n ++ List.replicate (n - (os.content d.node).length) 0
        ({ os with data := os.data.set d.node new }, .ok ())
      else (os, .error .io)

/-- fileutil.cc:175-180 `FileUtil::read`: a buffer of the size of the file, and one `read`; cells of the buffer that were not
written are `none`. -/
def readWhole (S : Sys) (os : Os) (name : Str) : Os × Except Raised (List (Option UInt8)) :=
  match openFile S os name { read := true } with
  | (os, .error e) => (os, .error e)
  | (os, .ok h) => match h.size S os with
    | .error e => (h.destroy os, .error e)
    | .ok n => match h.read S os n with
      | (os, .error e) => (h.destroy os, .error e)
      | (os, .ok bs) => (h.destroy os, .ok (bs.map some ++ List.replicate (n - bs.length) none))

/-- fileutil.cc:182-188 `FileUtil::write`. -/
def writeWhole (S : Sys) (os : Os) (name : Str) (bs : Bytes) : Os × Except Raised Unit :=
  match openFile S os name { write := true, createOrOpen := true, truncate := true } with
  | (os, .error e) => (os, .error e)
  | (os, .ok h) => match h.write S os bs with
    | (os, r) => (h.destroy os, r)

end Clip.Handles
