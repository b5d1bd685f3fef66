import Verif.Model.Dirs
/-! # Directories, and what is in them -/
namespace Clip.Dirs

/-- A file with so many bytes, or a directory with named entries. -/
inductive Node where
  | file (bytes : Nat)
  | dir (entries : List (Str × Node))

/-- Hidden names begin with a dot (`.` and `..` are among them). -/
def Hidden (name : Str) : Prop := name.head? = some '.'

instance (n : Str) : Decidable (Hidden n) := by unfold Hidden; infer_instance

mutual
/-- The bytes of all files, at whatever depth, that can be reached through names that are not hidden. -/
def Node.visibleBytes : Node → Nat
  | .file n => n
  | .dir es => visibleBytesIn es
def visibleBytesIn : List (Str × Node) → Nat
  | [] => 0
  | (name, c) :: es => (if Hidden name then 0 else c.visibleBytes) + visibleBytesIn es
end

mutual
/-- The bytes of all files. -/
def Node.bytes : Node → Nat
  | .file n => n
  | .dir es => bytesIn es
def bytesIn : List (Str × Node) → Nat
  | [] => 0
  | (_, c) :: es => c.bytes + bytesIn es
end

mutual
/-- How many directories are inside each other. -/
def Node.depth : Node → Nat
  | .file _ => 0
  | .dir es => depthIn es + 1
def depthIn : List (Str × Node) → Nat
  | [] => 0
  | (_, c) :: es => max c.depth (depthIn es)
end

/-- A path: something that does not end in a slash, and perhaps slashes. -/
def Bare (p q : Str) : Prop := q ≠ [] ∧ q.getLast? ≠ some '/' ∧ ∃ n, p = q ++ List.replicate n '/'

mutual
/-- The tree is what the system has at this path. -/
inductive Holds (D : Disk) : Str → Node → Prop
  | file {p n} : D.size p = some n → D.list p = none → Holds D p (.file n)
  | dir {p q k names es} : D.size p = some k → D.list p = some names → Bare p q →
      names.filter (¬ Hidden ·) = (es.map Prod.fst).filter (¬ Hidden ·) → HoldsIn D q es → Holds D p (.dir es)
/-- The entries are there. -/
inductive HoldsIn (D : Disk) : Str → List (Str × Node) → Prop
  | nil {q} : HoldsIn D q []
  | cons {q name c es} : name ≠ [] → '/' ∉ name → Holds D (q ++ '/' :: name) c → HoldsIn D q es →
      HoldsIn D q ((name, c) :: es)
end

/-- A callback is told names one after the other until it answers "no". -/
inductive Told {σ : Type} (callback : σ → Str → σ × Bool) : List Str → σ → σ → Prop
  | done {s} : Told callback [] s s
  | stop {name names s s'} : callback s name = (s', false) → Told callback (name :: names) s s'
  | on {name names s s' s''} : callback s name = (s', true) → Told callback names s' s'' →
      Told callback (name :: names) s s''

end Clip.Dirs
