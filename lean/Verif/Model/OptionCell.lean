import Verif.Model.Outcome
/-!
# Model of `src/utils/option.h` and `src/utils/option_impl.h`

An `Option<T>` is storage for a `T` (`value_data_`) and a pointer (`value_`) that is null or points to that storage.
Variables of this type are numbered.  The model counts how many `T`s were constructed and destroyed in the storage of options.
Constructing a `T` in storage, copying from it and destroying it are modelled with C++'s rules: it is undefined to
destroy or to read an object that is not alive.  Constructors of `T` may throw; destructors do not, and neither do moves.
-/
namespace Clip.OptionCell

/-- option.h:56-58, the members of `Option<T>`: whether `value_` is set, and the object alive in the storage, if any. -/
structure Cell (τ : Type) where
  ptr : Bool
  obj : Option τ

/-- All variables; `none`: not constructed yet, or destroyed.  `made` and `gone` count constructions and destructions. -/
structure Mem (τ : Type) where
  cell : Nat → Option (Cell τ)
  made : Nat
  gone : Nat

variable {τ : Type}

/-- The memory after a variable has changed. -/
def Mem.put (m : Mem τ) (i : Nat) (c : Option (Cell τ)) : Mem τ := { m with cell := fun k => if k = i then c else m.cell k }

/-- `value_->~T()`, option_impl.h:60-62, 67-69, 82-84. -/
def Mem.destroy (m : Mem τ) (i : Nat) (c : Cell τ) : Outcome Unit (Mem τ) :=
  match c.obj with
  | some _ => .ok { m.put i (some { c with obj := none }) with gone := m.gone + 1 }
  | none => .undefined

/-- `*other.value_` as a source of a copy: undefined if the object is not alive. -/
def Cell.source (c : Cell τ) : Outcome Unit τ :=
  match c.obj with
  | some v => .ok v
  | none => .undefined

/-- `value_ = new (value_data_) T(…)`.  (If an object is alive in the storage it is overwritten and never destroyed.) -/
def Mem.construct (m : Mem τ) (i : Nat) (v : τ) : Mem τ :=
  { m.put i (some ⟨true, some v⟩) with made := m.made + 1 }

/-- What a program can do with options. -/
inductive Op (τ : Type) where
  /-- `Option<T> i;` -/
  | empty (i : Nat)
  /-- `Option<T> i(value);` -/
  | value (i : Nat) (v : τ)
  /-- `Option<T> i(j);` -/
  | copy (i j : Nat)
  /-- `Option<T> i(std::move(j));` -/
  | move (i j : Nat)
  /-- the end of the lifetime of `i` -/
  | drop (i : Nat)
  /-- `i = j;` -/
  | assign (i j : Nat)
  /-- `i = std::move(j);` -/
  | moveAssign (i j : Nat)
  /-- `i = j;`, where copying the `T` throws -/
  | assignThrows (i j : Nat)

/-- option_impl.h:19-23, the constructors without a value; the variable must not be alive. -/
def newEmpty (m : Mem τ) (i : Nat) : Outcome Unit (Mem τ) :=
  match m.cell i with
  | none => .ok (m.put i (some ⟨false, none⟩))
  | some _ => .undefined

/-- option_impl.h:25-33, the constructors with a value. -/
def newValue (m : Mem τ) (i : Nat) (v : τ) : Outcome Unit (Mem τ) :=
  match m.cell i with
  | none => .ok (m.construct i v)
  | some _ => .undefined

/-- option_impl.h:35-42 `Option(const Option<T>& other)`. -/
def newCopy (m : Mem τ) (i j : Nat) : Outcome Unit (Mem τ) :=
  match m.cell i, m.cell j with
  | none, some o =>
    if o.ptr = false then .ok (m.put i (some ⟨false, none⟩))
    else match o.source with
      | .ok v => .ok (m.construct i v)
      | _ => .undefined
  | _, _ => .undefined

/-- option_impl.h:44-53 `Option(Option<T>&& other)`. -/
def newMove (m : Mem τ) (i j : Nat) : Outcome Unit (Mem τ) :=
  match m.cell i, m.cell j with
  | none, some o =>
    if o.ptr = false then .ok (m.put i (some ⟨false, none⟩))
    else match o.source with
      | .ok v =>
        let m := m.construct i v
        match m.destroy j o with
        | .ok m => .ok (m.put j (some ⟨false, none⟩))
        | _ => .undefined
      | _ => .undefined
  | _, _ => .undefined

/-- option_impl.h:55-60 `~Option`. -/
def dropCell (m : Mem τ) (i : Nat) : Outcome Unit (Mem τ) :=
  match m.cell i with
  | some c =>
    if c.ptr = true then
      match m.destroy i c with
      | .ok m => .ok (m.put i none)
      | _ => .undefined
    else .ok (m.put i none)
  | none => .undefined

/-- option_impl.h:62-75 `operator=(const Option<T>& other)`: the own value is destroyed first; `other` is looked at
afterwards.  `throws`: the copy constructor of `T` throws, and the assignment ends there. -/
def assignCell (m : Mem τ) (i j : Nat) (throws : Bool) : Outcome Unit (Mem τ) :=
  match m.cell i with
  | none => .undefined
  | some c =>
    match (if c.ptr = true then m.destroy i c else .ok m) with
    | .ok m =>
      match m.cell j with
      | none => .undefined
      | some o =>
        if o.ptr = false then .ok (m.put i (some ⟨false, none⟩))
        else match o.source with
          | .ok v => if throws then .ok m else .ok (m.construct i v)
          | _ => .undefined
    | _ => .undefined

/-- option_impl.h:77-92 `operator=(Option<T>&& other)`. -/
def moveAssignCell (m : Mem τ) (i j : Nat) : Outcome Unit (Mem τ) :=
  match m.cell i with
  | none => .undefined
  | some c =>
    match (if c.ptr = true then m.destroy i c else .ok m) with
    | .ok m =>
      match m.cell j with
      | none => .undefined
      | some o =>
        if o.ptr = false then .ok (m.put i (some ⟨false, none⟩))
        else match o.source with
          | .ok v =>
            match (m.construct i v).destroy j o with
            | .ok m => .ok (m.put j (some ⟨false, none⟩))
            | _ => .undefined
          | _ => .undefined
    | _ => .undefined

/-- One step of a program. -/
def Op.run (m : Mem τ) : Op τ → Outcome Unit (Mem τ)
  | .empty i => newEmpty m i
  | .value i v => newValue m i v
  | .copy i j => newCopy m i j
  | .move i j => newMove m i j
  | .drop i => dropCell m i
  | .assign i j => assignCell m i j false
  | .moveAssign i j => moveAssignCell m i j
  | .assignThrows i j => assignCell m i j true

/-- A program. -/
def runAll : List (Op τ) → Mem τ → Outcome Unit (Mem τ)
  | [], m => .ok m
  | o :: os, m => match o.run m with
    | .ok m => runAll os m
    | r => r

/-- The memory at the start. -/
def Mem.start (τ : Type) : Mem τ := ⟨fun _ => none, 0, 0⟩

/-- option_impl.h:94-102 `operator bool`, `operator!`, 148-151 `isEmpty`. -/
def Cell.full (c : Cell τ) : Bool := c.ptr

/-- option_impl.h:104-122 `operator*`, `operator->`: undefined for an empty option. -/
def Cell.deref (c : Cell τ) : Outcome Unit τ := if c.ptr = true then c.source else .undefined

/-- option_impl.h:124-131 `get`: an exception for an empty option. -/
def Cell.get (c : Cell τ) : Outcome Unit τ := if c.ptr = false then .thrown else c.source

/-- option_impl.h:133-140 `value_or`. -/
def Cell.valueOr (c : Cell τ) (alternative : τ) : Outcome Unit τ := if c.ptr = true then c.source else .ok alternative

end Clip.OptionCell
