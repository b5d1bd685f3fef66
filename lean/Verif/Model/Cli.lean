import Verif.Model.Flags
import Verif.Model.Data
/-!
# Model of `src/cli.cc` and of writing a file (`src/utils/fileutil.cc`, `src/utils/file.cc`)

What the program does with the drawing (context set-up, evaluation, SVG export) is a parameter; texts printed to the
standard error stream are not modelled.
-/
namespace Clip

/-- What the command line program works with. -/
structure CliEnv (Ctx : Type) where
  /-- `context_setup_defaults` with the given fonts; `none` is an error -/
  setup : List Str → Option Ctx
  /-- `read_file` -/
  readFile : Str → Option Str
  /-- the standard input -/
  stdin : Str
  /-- `clip::eval` -/
  eval : Ctx → Str → Option Ctx
  /-- `export_svg` -/
  exportSvg : Ctx → Option Str

/-- What it does: exit status, standard output, and the file that is written (`FileUtil::write`). -/
structure CliResult where
  exit : Nat
  stdout : Str
  write : Option (Str × Str)
  deriving DecidableEq, Repr

/-- cli.cc:56-73: the declared flags. -/
def cliFlags : List Flag :=
  [⟨some 'e', ['e', 'x', 'p', 'o', 'r', 't'], true⟩,
   ⟨some 'f', ['e', 'x', 'p', 'o', 'r', 't', '-', 'f', 'o', 'r', 'm', 'a', 't'], true⟩,
   ⟨none, ['f', 'o', 'n', 't', '-', 'l', 'o', 'a', 'd'], true⟩,
   ⟨some 'd', ['d', 'e', 'b', 'u', 'g'], false⟩,
   ⟨some 'h', ['h', 'e', 'l', 'p'], false⟩,
   ⟨some 'v', ['v', 'e', 'r', 's', 'i', 'o', 'n'], false⟩]

/-- api.h `OutputFormat`. -/
inductive OutputFormat where
  | svg
  | png
  deriving DecidableEq, Repr

/-- cli.cc:119-137: the output format; `none` is an invalid one. -/
def cliFormat (flagFormat flagExport : Str) : Option OutputFormat :=
  if flagFormat = [] then
    let f := if endsWith flagExport ['.', 's', 'v', 'g'] then .svg else OutputFormat.svg
    some (if endsWith flagExport ['.', 'p', 'n', 'g'] then .png else f)
  else if flagFormat = ['s', 'v', 'g'] then some .svg
  else if flagFormat = ['p', 'n', 'g'] then some .png
  else none

def cliFail : CliResult := ⟨1, [], none⟩

/-- cli.cc:172-199: exporting; nothing is produced for PNG. -/
def cliExport {Ctx : Type} (env : CliEnv Ctx) (ctx : Ctx) (format : OutputFormat) (flagExport : Str) : CliResult :=
  if flagExport = [] then ⟨0, [], none⟩
  else
    let out := match format with
      | .svg => env.exportSvg ctx
      | .png => some []
    match out with
    | none => cliFail
    | some buf => if flagExport = ['-'] then ⟨0, buf, none⟩ else ⟨0, [], some (flagExport, buf)⟩

/-- cli.cc:53-199 `main`, on the arguments after `argv[0]`. -/
def cliMain {Ctx : Type} (env : CliEnv Ctx) (argv : List Str) : CliResult :=
  match flagsParse cliFlags argv with
  | none => cliFail
  | some (calls, args) =>
    if switchFlag 5 false calls then ⟨0, [], none⟩
    else match args with
      | [inputPath] =>
        if switchFlag 4 false calls then ⟨0, [], none⟩
        else match cliFormat (stringFlag 1 [] calls) (stringFlag 0 [] calls) with
          | none => cliFail
          | some format => match env.setup (stringvFlag 2 [] calls) with
            | none => cliFail
            | some ctx =>
              match (if inputPath = ['-'] then some env.stdin else env.readFile inputPath) with
              | none => cliFail
              | some input => match env.eval ctx input with
                | none => cliFail
                | some ctx => cliExport env ctx format (stringFlag 0 [] calls)
      | _ => ⟨0, [], none⟩

/-! ## Writing a file -/

/-- The contents of the files on disk. -/
abbrev Disk := Str → Option Str

/-- A step of the operating system: opening with `O_CREAT | O_TRUNC`, and writing the first `n` characters. -/
inductive DiskOp where
  | openTrunc (path : Str)
  | write (path : Str) (data : Str) (n : Nat)

def DiskOp.run (d : Disk) : DiskOp → Disk
  | .openTrunc p => fun q => if q = p then some [] else d q
  | .write p s n => fun q => if q = p then some (((d p).getD []) ++ s.take n) else d q

/-- fileutil.cc:184-191 `FileUtil::write`, file.cc:23-62 `openFile`, file.cc:111-117 `File::write`: the file is opened
(and emptied), then a single `write`, of which the system performs `n` characters; if not all of them, an exception is
thrown. -/
def fileWriteOps (path data : Str) (n : Nat) : List DiskOp := [.openTrunc path, .write path data n]

/-- Whether `FileUtil::write` succeeds. -/
def fileWriteOk (data : Str) (n : Nat) : Bool := n == data.length

end Clip
