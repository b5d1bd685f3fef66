import Verif.Model.Handles
/-!
# Model of `FileUtil::rm`, `FileUtil::mv` and `FileUtil::truncate`

The system is the one of `Verif.Model.Handles`.  Names are not resolved, and no name leads to a directory.
-/
namespace Clip.Handles

/-- Whether the system permits the call (rights, space, ...). -/
structure Permits where
  unlink : Os → Str → Bool
  rename : Os → Str → Str → Bool
  truncate : Os → Str → Nat → Bool

/-- `unlink(2)`: fails if there is no such name. -/
def sysRemove (A : Permits) (os : Os) (name : Str) : Option Os :=
  if A.unlink os name && (os.names name).isSome then some (sysUnlink os name) else none

/-- `rename(2)`: the new name leads to the file, the old one is gone.  If both names lead to the same file, nothing happens. -/
def sysRename (A : Permits) (os : Os) (src dst : Str) : Option Os :=
  match os.names src with
  | none => none
  | some k =>
    if A.rename os src dst then
      some (if os.names dst = some k then os
        else { os with names := fun n => if n = dst then some k else if n = src then none else os.names n })
    else none

/-- `truncate(2)`. -/
def sysTruncate (A : Permits) (os : Os) (name : Str) (n : Nat) : Option Os :=
  match os.names name with
  | none => none
  | some k =>
    if A.truncate os name n then
      some { os with data := os.data.set k ((os.content k).take n ++ List.replicate (n - (os.content k).length) 0) }
    else none

/-- fileutil.cc:159-161 `FileUtil::rm`: the result of the call is not looked at. -/
def rm (A : Permits) (os : Os) (name : Str) : Os × Except Raised Unit := ((sysRemove A os name).getD os, .ok ())

/-- fileutil.cc:163-167 `FileUtil::mv`. -/
def mv (A : Permits) (os : Os) (src dst : Str) : Os × Except Raised Unit :=
  match sysRename A os src dst with
  | some os' => (os', .ok ())
  | none => (os, .error .io)

/-- fileutil.cc:169-173 `FileUtil::truncate`. -/
def truncateFile (A : Permits) (os : Os) (name : Str) (n : Nat) : Os × Except Raised Unit :=
  match sysTruncate A os name n with
  | some os' => (os', .ok ())
  | none => (os, .error .io)

end Clip.Handles
