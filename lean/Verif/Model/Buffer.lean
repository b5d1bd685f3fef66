import Verif.Model.Outcome
/-!
# Model of `src/utils/buffer.cc`

Memory is a list of cells; a cell that was never written is `none` (indeterminate).  Allocation always succeeds
(`RAISE(kMallocError)` is not modelled) and sizes are unbounded (`size_t` overflow is not modelled).
-/
namespace Clip

/-- buffer.h:57-61, the members of `Buffer`; an indeterminate mark is `none`. -/
structure Buf where
  data : Option (List (Option UInt8))
  size : Nat
  alloc : Nat
  mark : Option Nat
  deriving DecidableEq, Repr

/-- buffer.cc:20 `Buffer()`. -/
def Buf.new : Buf := ⟨none, 0, 0, some 0⟩

/-- buffer.cc:22-34 `Buffer(initial_data, initial_size)`. -/
def Buf.ofBytes (bs : List UInt8) : Buf := ⟨some (bs.map some), bs.length, bs.length, some 0⟩

/-- buffer.cc:36-45 `Buffer(initial_size)`. -/
def Buf.ofSize (n : Nat) : Buf := ⟨some (List.replicate n none), n, n, some 0⟩

/-- `memcpy(dst + at, src, n)` into a block. -/
def writeAt (mem : List (Option UInt8)) (pos : Nat) (src : List (Option UInt8)) : List (Option UInt8) :=
  mem.take pos ++ src ++ mem.drop (pos + src.length)

/-- The first `n` cells of a block (reading a null pointer: nothing is there). -/
def cells (data : Option (List (Option UInt8))) (n : Nat) : List (Option UInt8) := (data.getD []).take n

/-- buffer.cc:47-55 `Buffer(const Buffer&)`: the mark is not initialised. -/
def Buf.copy (b : Buf) : Buf := ⟨some (cells b.data b.size), b.size, b.size, none⟩

/-- buffer.cc:57-72 `operator=(const Buffer&)` from another buffer: the mark is kept. -/
def Buf.assign (self other : Buf) : Buf := ⟨some (cells other.data other.size), other.size, other.size, self.mark⟩

/-- buffer.cc:57-72 `operator=(const Buffer&)` from the same buffer: the block is freed and replaced by a fresh one before
it is copied (onto itself). -/
def Buf.assignSelf (self : Buf) : Buf := ⟨some (List.replicate self.size none), self.size, self.size, self.mark⟩

/-- buffer.cc:74-83 `Buffer(Buffer&&)`: the new buffer and what is left of the old one. -/
def Buf.moveNew (b : Buf) : Buf × Buf := (⟨b.data, b.size, b.alloc, some 0⟩, ⟨none, 0, 0, b.mark⟩)

/-- buffer.cc:85-95 `operator=(Buffer&&)` from another buffer. -/
def Buf.moveAssign (b : Buf) : Buf × Buf := (b, ⟨none, 0, 0, some 0⟩)

/-- buffer.cc:133-145 `reserve`; `realloc` keeps the contents. -/
def Buf.reserve (b : Buf) (n : Nat) : Buf :=
  let alloc := b.alloc + n
  { b with alloc := alloc
           data := some (match b.data with
             | none => List.replicate alloc none
             | some mem => mem.take alloc ++ List.replicate (alloc - mem.length) none) }

/-- buffer.cc:111-118 `append(data, size)`; with no block and nothing to append nothing is written. -/
def Buf.append (b : Buf) (bs : List UInt8) : Buf :=
  let b := if b.alloc < b.size + bs.length then b.reserve (b.size + bs.length - b.alloc) else b
  { b with data := b.data.map fun mem => writeAt mem b.size (bs.map some)
           size := b.size + bs.length }

/-- buffer.cc:124-130 `truncate`; throws `kIndexError`. -/
def Buf.truncate (b : Buf) (n : Nat) : Outcome Unit Buf := if b.size < n then .thrown else .ok { b with size := n }

/-- buffer.cc:147-150 `clear`. -/
def Buf.clear (b : Buf) : Buf := { b with size := 0, mark := some 0 }

/-- buffer.cc:189-191 `setMark`. -/
def Buf.setMark (b : Buf) (n : Nat) : Buf := { b with mark := some n }

/-- buffer.cc:156-162 `charAt`; `undefined` if the byte is outside the block or was never written. -/
def Buf.charAt (b : Buf) (pos : Nat) : Outcome Unit UInt8 :=
  if b.size ≤ pos then .thrown
  else match (b.data.getD [])[pos]? with
    | some (some c) => .ok c
    | _ => .undefined

/-- buffer.cc:164-172, the loop of `find` from `n` on; `none` is `npos`. -/
def findCells (chr : UInt8) : List (Option UInt8) → Nat → Outcome Unit (Option Nat)
  | [], _ => .ok none
  | none :: _, _ => .undefined
  | some c :: cs, n => if c = chr then .ok (some n) else findCells chr cs (n + 1)

/-- buffer.cc:164-172 `find`. -/
def Buf.find (b : Buf) (chr : UInt8) : Outcome Unit (Option Nat) := findCells chr (cells b.data b.size) 0

/-- buffer.cc:182-184 `toString`. -/
def Buf.toBytes (b : Buf) : Option (List UInt8) := (cells b.data b.size).mapM id

/-- buffer.cc:103-109 `operator==(const char*)`: `str` are the bytes up to the terminating NUL. -/
def Buf.eqCStr (b : Buf) (str : List UInt8) : Bool :=
  if str.length ≠ b.size then false else decide (cells b.data b.size = str.map some)

end Clip
