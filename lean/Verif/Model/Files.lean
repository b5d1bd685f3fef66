import Verif.Model.Outcome
/-!
# Model of the directory functions of `src/utils/fileutil.cc`

The file system is modelled as a tree of directories and files without links; the entries `.` and `..` of directories are not
modelled.  The calls of the system follow POSIX: `stat` and `mkdir` walk along the names of the path, `ENOENT` if one does
not exist and `ENOTDIR` if one is not a directory; `mkdir` fails with `EEXIST` for something that exists, and ignores slashes at
the end of the path.  `mkdir` may also fail for other reasons (`denied`), and `stat` does not.
-/
namespace Clip.Files

inductive Kind where
  | dir
  | file
  deriving DecidableEq, Repr

/-- A place in the file system: the names from the root on. -/
abbrev Place := List Str

/-- The file system: what is at each place. -/
abbrev Tree := Place → Option Kind

/-- The rest of the system: the working directory, and where directories cannot be made. -/
structure System where
  cwd : Place
  denied : Place → Bool

/-- The names in a path; several slashes count as one.  The first argument is the beginning of a name. -/
def namesFrom : Str → Str → List Str
  | w, [] => if w = [] then [] else [w]
  | w, c :: r => if c = '/' then (if w = [] then [] else [w]) ++ namesFrom [] r else namesFrom (w ++ [c]) r

/-- The place a path stands for. -/
def System.place (S : System) (p : Str) : Place :=
  (if p.head? = some '/' then [] else S.cwd) ++ namesFrom [] p

/-- The errors of the system. -/
inductive Errno where
  | noent
  | notdir
  | exist
  | other
  deriving DecidableEq, Repr

/-- What is found when walking along the names. -/
def walk (t : Tree) : Place → List Str → Except Errno Kind
  | at_, [] => match t at_ with
    | some k => .ok k
    | none => .error .noent
  | at_, n :: ns => match t at_ with
    | some .dir => walk t (at_ ++ [n]) ns
    | some .file => .error .notdir
    | none => .error .noent

/-- `stat`: a file whose path ends in a slash is no directory. -/
def System.stat (S : System) (t : Tree) (p : Str) : Except Errno Kind :=
  if p = [] then .error .noent
  else match walk t [] (S.place p) with
    | .ok .file => if p.getLast? = some '/' then .error .notdir else .ok .file
    | r => r

/-- `mkdir`. -/
def System.sysMkdir (S : System) (t : Tree) (p : Str) : Except Errno Tree :=
  if p = [] then .error .noent
  else match walk t [] (S.place p) with
    | .ok _ => .error .exist
    | .error .noent =>
      match walk t [] (S.place p).dropLast with
      | .ok .dir => if S.denied (S.place p) then .error .other else .ok fun q => if q = S.place p then some .dir else t q
      | .ok .file => .error .notdir
      | .error e => .error e
    | .error e => .error e

/-- fileutil.cc:30-34 `FileUtil::mkdir`; the boolean tells whether it returns (`false`: an exception). -/
def System.mkdir (S : System) (t : Tree) (p : Str) : Tree × Bool :=
  match S.sysMkdir t p with
  | .ok t' => (t', true)
  | .error _ => (t, false)

/-- fileutil.cc:36-48 `FileUtil::exists`; `none`: an exception. -/
def System.exists_ (S : System) (t : Tree) (p : Str) : Option Bool :=
  match S.stat t p with
  | .ok _ => some true
  | .error .noent => some false
  | .error _ => none

/-- fileutil.cc:50-58 `FileUtil::isDirectory`. -/
def System.isDirectory (S : System) (t : Tree) (p : Str) : Option Bool :=
  match S.stat t p with
  | .ok k => some (k == .dir)
  | .error _ => none

/-- fileutil.cc:88, the paths at which the loop 88-104 stops: what is before each of the slashes of the second
argument.  The first argument is what was passed already. -/
def stops : Str → Str → List Str
  | _, [] => []
  | pre, c :: r => if c = '/' then pre :: stops (pre ++ [c]) r else stops (pre ++ [c]) r

/-- fileutil.cc:89-103, the body of the loop. -/
def System.mkdirStop (S : System) (t : Tree) (p : Str) : Tree × Bool :=
  match S.exists_ t p with
  | none => (t, false)
  | some true => match S.isDirectory t p with
    | some true => (t, true)
    | _ => (t, false)
  | some false => S.mkdir t p

/-- fileutil.cc:88-104, the loop. -/
def System.mkdirStops (S : System) : List Str → Tree → Tree × Bool
  | [], t => (t, true)
  | p :: ps, t => match S.mkdirStop t p with
    | (t', true) => S.mkdirStops ps t'
    | r => r

/-- fileutil.cc:71-107 `FileUtil::mkdir_p`. -/
def System.mkdirP (S : System) (t : Tree) (p : Str) : Tree × Bool :=
  match S.exists_ t p with
  | none => (t, false)
  | some true => match S.isDirectory t p with
    | some true => (t, true)
    | _ => (t, false)
  | some false =>
    match S.mkdirStops (stops (p.takeWhile (· == '/')) (p.dropWhile (· == '/'))) t with
    | (t', true) => S.mkdir t' p
    | r => r

end Clip.Files
