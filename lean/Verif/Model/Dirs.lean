import Verif.Model.Outcome
import Verif.Model.StringUtil
/-!
# Model of `FileUtil::ls`, `FileUtil::du_c` (`src/utils/fileutil.cc`)

The system is represented by what `stat` and `readdir` report: the size of what is at a path, and the names in it if it is a
directory, in the order of the system and with `.` and `..`.  Every failing call raises (`thrown`).  `opendir` of an
existing directory succeeds.
-/
namespace Clip.Dirs

structure Disk where
  /-- `st_size` of `stat(path)`; `none`: `stat` fails. -/
  size : Str → Option Nat
  /-- The names `readdir` delivers; `none`: no directory. -/
  list : Str → Option (List Str)

/-- fileutil.cc:50-58 `FileUtil::isDirectory`: raises if there is nothing. -/
def Disk.isDirectory (D : Disk) (p : Str) : Outcome Unit Bool :=
  match D.size p with
  | none => .thrown
  | some _ => .ok (D.list p).isSome

/-- fileutil.cc:60-68 `FileUtil::size`. -/
def Disk.sizeOf (D : Disk) (p : Str) : Outcome Unit Nat :=
  match D.size p with
  | none => .thrown
  | some n => .ok n

/-- fileutil.cc:140-154, the loop of `ls`: names that begin with a dot are skipped; the callback answers whether to go on. -/
def lsLoop {σ : Type} (callback : σ → Str → Outcome Unit (σ × Bool)) : List Str → σ → Outcome Unit σ
  | [], s => .ok s
  | name :: names, s =>
    if name.length < 1 ∨ name.head? = some '.' then lsLoop callback names s
    else match callback s name with
      | .ok (s', true) => lsLoop callback names s'
      | .ok (s', false) => .ok s'
      | .error e => .error e
      | .thrown => .thrown
      | .undefined => .undefined

/-- fileutil.cc:117-157 `FileUtil::ls`. -/
def Disk.ls {σ : Type} (D : Disk) (dirname : Str) (callback : σ → Str → Outcome Unit (σ × Bool)) (s : σ) : Outcome Unit σ :=
  match D.size dirname with
  | none => .thrown
  | some _ => match D.list dirname with
    | none => .thrown
    | some names => lsLoop callback names s

/-- fileutil.cc:197-208, the callback of `du_c`; `du` is `du_c` itself. -/
def Disk.duCallback (D : Disk) (du : Str → Outcome Unit Nat) (path : Str) (size : Nat) (file : Str) :
    Outcome Unit (Nat × Bool) :=
  match joinPaths path file with
  | none => .undefined
  | some filename =>
    match D.isDirectory filename with
    | .ok true => match du filename with
      | .ok n => .ok (size + n, true)
      | .error e => .error e
      | .thrown => .thrown
      | .undefined => .undefined
    | .ok false => match D.sizeOf filename with
      | .ok n => .ok (size + n, true)
      | .error e => .error e
      | .thrown => .thrown
      | .undefined => .undefined
    | .error e => .error e
    | .thrown => .thrown
    | .undefined => .undefined

/-- fileutil.cc:194-211 `FileUtil::du_c`, with at most `fuel` calls inside each other (`error`: not finished). -/
def Disk.duC (D : Disk) : Nat → Str → Outcome Unit Nat
  | 0, _ => .error ()
  | fuel + 1, path => D.ls path (D.duCallback (D.duC fuel) path) 0

end Clip.Dirs
