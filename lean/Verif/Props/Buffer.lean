import Verif.Model.Buffer
import Mathlib.Data.List.Basic
/-!
# C35: a buffer is a byte sequence
-/
set_option linter.unusedSimpArgs false
namespace Clip

/-! ## Specification: histories of operations on a byte sequence -/

/-- What can be done with a buffer; `copy` and `move` stand for replacing it by a copy or by the target of a move. -/
inductive BufOp where
  | fresh (bs : List UInt8)
  | append (bs : List UInt8)
  | truncate (n : Nat)
  | reserve (n : Nat)
  | clear
  | setMark (n : Nat)
  | copy
  | assignTo (b : List UInt8)
  | move

/-- The effect on the contents.  Truncating to more than there is is refused and changes nothing. -/
def contentsAfter (s : List UInt8) : BufOp → List UInt8
  | .fresh bs => bs
  | .append bs => s ++ bs
  | .truncate n => if s.length < n then s else s.take n
  | .clear => []
  | _ => s

/-- The effect on the buffer; `assignTo` assigns it to another buffer with the given contents. -/
def Buf.step (b : Buf) : BufOp → Buf
  | .fresh bs => Buf.ofBytes bs
  | .append bs => b.append bs
  | .truncate n => match b.truncate n with
    | .ok b' => b'
    | _ => b
  | .reserve n => b.reserve n
  | .clear => b.clear
  | .setMark n => b.setMark n
  | .copy => b.copy
  | .assignTo bs => (Buf.ofBytes bs).assign b
  | .move => b.moveNew.1

/-! ## Invariant -/

structure BufInv (b : Buf) (s : List UInt8) : Prop where
  cells_eq : cells b.data b.size = s.map some
  size_eq : b.size = s.length
  le : b.size ≤ b.alloc
  block : match b.data with
    | none => b.alloc = 0
    | some mem => mem.length = b.alloc

theorem inv_new : BufInv Buf.new [] := ⟨rfl, rfl, Nat.le_refl _, rfl⟩

theorem inv_ofBytes (bs : List UInt8) : BufInv (Buf.ofBytes bs) bs :=
  ⟨by simp only [cells, Buf.ofBytes, Option.getD_some]; exact List.take_of_length_le (by simp), rfl, Nat.le_refl _, by simp [Buf.ofBytes]⟩

theorem inv_reserve {b : Buf} {s : List UInt8} (h : BufInv b s) (n : Nat) :
    BufInv (b.reserve n) s ∧ (b.reserve n).data.isSome ∧ (b.reserve n).alloc = b.alloc + n := by
  obtain ⟨h1, h2, h3, h4⟩ := h
  refine ⟨⟨?_, h2, by simp [Buf.reserve]; omega, ?_⟩, rfl, rfl⟩
  · cases hd : b.data with
    | none =>
      rw [hd] at h4
      simp only at h4
      have hs : b.size = 0 := by omega
      have : s = [] := by rw [hs] at h2; exact List.length_eq_zero_iff.1 h2.symm
      simp [Buf.reserve, cells, hs, this]
    | some mem =>
      rw [hd] at h4 h1
      simp only at h4
      simp only [cells, Option.getD_some] at h1
      simp only [Buf.reserve, cells, hd, Option.getD_some]
      rw [List.take_append_of_le_length (by rw [List.length_take]; omega), List.take_take]
      have : min b.size (b.alloc + n) = b.size := by omega
      rw [this, h1]
  · simp only [Buf.reserve]
    cases hd : b.data with
    | none => simp
    | some mem =>
      rw [hd] at h4
      simp only at h4
      simp [h4]

theorem writeAt_cells {mem src : List (Option UInt8)} {n : Nat} (h : n + src.length ≤ mem.length) :
    (writeAt mem n src).take (n + src.length) = mem.take n ++ src ∧ (writeAt mem n src).length = mem.length := by
  have hl : (mem.take n ++ src).length = n + src.length := by simp; omega
  constructor
  · rw [writeAt, ← hl, List.take_left]
  · simp [writeAt]; omega

theorem inv_append {b : Buf} {s : List UInt8} (h : BufInv b s) (bs : List UInt8) : BufInv (b.append bs) (s ++ bs) := by
  unfold Buf.append
  have key : ∀ b' : Buf, BufInv b' s → b'.size = b.size → b.size + bs.length ≤ b'.alloc →
      BufInv { b' with data := b'.data.map fun mem => writeAt mem b'.size (bs.map some)
                       size := b'.size + bs.length } (s ++ bs) := by
    intro b' h hs ha
    obtain ⟨h1, h2, h3, h4⟩ := h
    cases hd : b'.data with
    | none =>
      rw [hd] at h4 h1
      simp only at h4
      have hb : bs = [] := List.length_eq_zero_iff.1 (by omega)
      have hs : s = [] := List.length_eq_zero_iff.1 (by omega)
      subst hb; subst hs
      exact ⟨by simp [cells], by simp; omega, by simp; omega, by simpa using h4⟩
    | some mem =>
      rw [hd] at h4 h1
      simp only at h4
      have hw := writeAt_cells (mem := mem) (src := bs.map some) (n := b'.size) (by simp; omega)
      simp only [List.length_map] at hw
      refine ⟨?_, by simp; omega, by simp; omega, by simpa [hw.2] using h4⟩
      simp only [cells, Option.map_some, Option.getD_some] at h1 ⊢
      rw [hw.1, h1]; simp
  split
  · obtain ⟨hr, -, hal⟩ := inv_reserve h (b.size + bs.length - b.alloc)
    exact key _ hr rfl (by omega)
  · next hlt => exact key b h rfl (by omega)

theorem inv_step {b : Buf} {s : List UInt8} (h : BufInv b s) (op : BufOp) :
    BufInv (b.step op) (contentsAfter s op) := by
  cases op with
  | fresh bs => exact inv_ofBytes bs
  | append bs => exact inv_append h bs
  | truncate n =>
    obtain ⟨h1, h2, h3, h4⟩ := h
    simp only [Buf.step, Buf.truncate, contentsAfter, h2]
    by_cases hn : s.length < n
    · simp only [hn, if_true]; exact ⟨h1, h2, h3, h4⟩
    · simp only [hn, if_false]
      refine ⟨?_, by simp; omega, by simp; omega, h4⟩
      simp only [cells] at h1 ⊢
      rw [List.map_take, ← h1, List.take_take]
      congr 1; omega
  | reserve n => exact (inv_reserve h n).1
  | clear => exact ⟨by simp [Buf.step, Buf.clear, cells, contentsAfter], rfl, by simp [Buf.step, Buf.clear], h.block⟩
  | setMark n => exact ⟨h.cells_eq, h.size_eq, h.le, h.block⟩
  | copy =>
    refine ⟨?_, h.size_eq, Nat.le_refl _, ?_⟩
    · simp only [Buf.step, Buf.copy, cells, Option.getD_some, contentsAfter]
      rw [List.take_take, Nat.min_self]; exact h.cells_eq
    · simp only [Buf.step, Buf.copy, h.cells_eq, List.length_map]; exact h.size_eq.symm
  | assignTo bs =>
    refine ⟨?_, h.size_eq, Nat.le_refl _, ?_⟩
    · simp only [Buf.step, Buf.assign, cells, Option.getD_some, contentsAfter]
      rw [List.take_take, Nat.min_self]; exact h.cells_eq
    · simp only [Buf.step, Buf.assign, h.cells_eq, List.length_map]; exact h.size_eq.symm
  | move => exact ⟨h.cells_eq, h.size_eq, h.le, h.block⟩

theorem inv_history (ops : List BufOp) {b : Buf} {s : List UInt8} (h : BufInv b s) :
    BufInv (ops.foldl Buf.step b) (ops.foldl contentsAfter s) := by
  induction ops generalizing b s with
  | nil => exact h
  | cons op ops ih => exact ih (inv_step h op)

/-! ## Properties -/

theorem mapM_some_id (s : List UInt8) : (s.map some).mapM (id : Option UInt8 → Option UInt8) = some s := by
  induction s with
  | nil => rfl
  | cons c s ih => simp [List.mapM_cons, ih]

/-- C35: after any history of operations the buffer holds the bytes that a byte sequence would hold; its size is their
number and is at most the allocated size. -/
theorem C35_history (ops : List BufOp) :
    (ops.foldl Buf.step Buf.new).toBytes = some (ops.foldl contentsAfter []) ∧
    (ops.foldl Buf.step Buf.new).size = (ops.foldl contentsAfter []).length ∧
    (ops.foldl Buf.step Buf.new).size ≤ (ops.foldl Buf.step Buf.new).alloc := by
  have h := inv_history ops inv_new
  refine ⟨?_, h.size_eq, h.le⟩
  rw [Buf.toBytes, h.cells_eq, mapM_some_id]

theorem findCells_spec (chr : UInt8) (s : List UInt8) (n : Nat) :
    findCells chr (s.map some) n = .ok ((s.findIdx? (· == chr)).map (n + ·)) := by
  induction s generalizing n with
  | nil => rfl
  | cons c s ih =>
    simp only [List.map_cons, findCells, List.findIdx?_cons]
    by_cases hc : c = chr
    · simp [hc]
    · simp [hc, ih]
      cases s.findIdx? (· == chr) with
      | none => rfl
      | some k => simp; omega

/-- C35: reading.  `charAt` gives the byte at a position, or fails outside; `find` gives the first position of a byte;
comparing with a C string compares the bytes. -/
theorem C35_reads (ops : List BufOp) (pos : Nat) (chr : UInt8) (str : List UInt8) :
    let b := ops.foldl Buf.step Buf.new
    let s := ops.foldl contentsAfter []
    b.charAt pos = (match s[pos]? with
      | some c => .ok c
      | none => .thrown) ∧
    (∃ r, b.find chr = .ok r ∧
      (∀ i, r = some i ↔ s[i]? = some chr ∧ ∀ j < i, s[j]? ≠ some chr)) ∧
    (b.eqCStr str = true ↔ s = str) := by
  intro b s
  have h : BufInv b s := inv_history ops inv_new
  obtain ⟨h1, h2, h3, h4⟩ := h
  refine ⟨?_, ?_, ?_⟩
  · unfold Buf.charAt
    by_cases hp : b.size ≤ pos
    · rw [if_pos hp]
      have : s[pos]? = none := List.getElem?_eq_none (by omega)
      rw [this]
    · rw [if_neg hp]
      have hps : pos < s.length := by omega
      have hc : (b.data.getD [])[pos]? = some (some s[pos]) := by
        have e : (cells b.data b.size)[pos]? = (b.data.getD [])[pos]? := by
          rw [cells, List.getElem?_take, if_pos (by omega)]
        rw [← e, h1]; simp [hps]
      rw [hc, List.getElem?_eq_getElem hps]
  · refine ⟨s.findIdx? (· == chr), ?_, ?_⟩
    · rw [Buf.find, h1, findCells_spec]; simp
    · intro i
      rw [List.findIdx?_eq_some_iff_getElem]
      constructor
      · rintro ⟨hi, e, hall⟩
        refine ⟨by rw [List.getElem?_eq_getElem hi]; simpa using e, ?_⟩
        intro j hj hc
        have := hall j hj
        rw [List.getElem?_eq_getElem (by omega)] at hc
        simp at this hc
        exact this hc
      · rintro ⟨e, hall⟩
        obtain ⟨hi, e⟩ := List.getElem?_eq_some_iff.1 e
        refine ⟨hi, by simpa using e, ?_⟩
        intro j hj
        have := hall j hj
        rw [List.getElem?_eq_getElem (by omega)] at this
        simpa using this
  · unfold Buf.eqCStr
    by_cases hl : str.length ≠ b.size
    · rw [if_pos hl]
      constructor
      · intro h; cases h
      · rintro rfl; exact absurd h2.symm hl
    · rw [if_neg hl, h1]
      simp only [decide_eq_true_eq]
      constructor
      · intro h
        exact List.map_injective_iff.2 (fun _ _ h => Option.some.inj h) h
      · rintro rfl; rfl

/-- C35: appending does not change the bytes that are there and truncating to a length keeps exactly that prefix;
truncating to more than there is fails. -/
theorem C35_truncate (ops : List BufOp) (n : Nat) :
    let b := ops.foldl Buf.step Buf.new
    let s := ops.foldl contentsAfter []
    (n ≤ s.length → ∃ b', b.truncate n = .ok b' ∧ b'.toBytes = some (s.take n)) ∧
    (s.length < n → b.truncate n = .thrown) := by
  intro b s
  have h : BufInv b s := inv_history ops inv_new
  constructor
  · intro hn
    have hs := inv_step h (.truncate n)
    have hsz := h.size_eq
    have ht : b.truncate n = .ok { b with size := n } := by
      rw [Buf.truncate, if_neg (by omega)]
    refine ⟨_, ht, ?_⟩
    simp only [Buf.step, ht, contentsAfter] at hs
    rw [if_neg (by omega)] at hs
    rw [Buf.toBytes, hs.cells_eq, mapM_some_id]
  · intro hn
    have hsz := h.size_eq
    rw [Buf.truncate, if_pos (by omega)]

/-- C35: a move leaves the old buffer empty. -/
theorem C35_move (b : Buf) : b.moveNew.2.toBytes = some [] ∧ b.moveAssign.2.toBytes = some [] ∧
    b.moveNew.1.toBytes = b.toBytes ∧ b.moveAssign.1.toBytes = b.toBytes := ⟨rfl, rfl, rfl, rfl⟩

/-- C35: a buffer made with a size has that size, room for that many bytes, and (violated by the code) bytes that were never
set. -/
theorem C35_sized (n : Nat) : (Buf.ofSize n).size = n ∧ (Buf.ofSize n).alloc = n ∧ (Buf.ofSize n).mark = some 0 ∧
    ((Buf.ofSize n).toBytes = none ↔ n ≠ 0) := by
  refine ⟨rfl, rfl, rfl, ?_⟩
  cases n with
  | zero => simp [Buf.toBytes, Buf.ofSize, cells]
  | succ n => simp [Buf.toBytes, Buf.ofSize, cells, List.replicate_succ, List.mapM_cons]

/-- C35, violated by the code: assigning a buffer to itself loses its bytes (they are never initialised afterwards). -/
theorem C35_self_assign (ops : List BufOp) (h : (ops.foldl contentsAfter []) ≠ []) :
    (ops.foldl Buf.step Buf.new).assignSelf.toBytes = none := by
  have hi := inv_history ops inv_new
  have hs : (ops.foldl Buf.step Buf.new).size ≠ 0 := by
    rw [hi.size_eq]; exact fun e => h (List.length_eq_zero_iff.1 e)
  obtain ⟨n, hn⟩ := Nat.exists_eq_succ_of_ne_zero hs
  rw [Buf.toBytes, Buf.assignSelf]
  simp [cells, hn, List.replicate_succ, List.mapM_cons]

/-- C35, violated by the code: the mark of a copy is indeterminate. -/
theorem C35_copy_mark (b : Buf) : b.copy.mark = none := rfl

example : ([.append [1, 2, 3], .truncate 2, .reserve 10, .append [9], .copy, .setMark 1] : List BufOp).foldl
    contentsAfter [] = [1, 2, 9] := by decide

/-- Specification: the mark.  A new buffer, one that was filled anew, cleared or moved has the mark 0; a copy has no
definite mark (`none`); `assignTo` gives the contents to a buffer that has the mark 0; everything else keeps it. -/
def markAfter (m : Option Nat) : BufOp → Option Nat
  | .fresh _ | .clear | .move | .assignTo _ => some 0
  | .setMark n => some n
  | .copy => none
  | .append _ | .truncate _ | .reserve _ => m

/-- C35: the mark after any history; in particular it is the last one set, unless the buffer was cleared, copied or moved
since. -/
theorem C35_mark (ops : List BufOp) :
    (ops.foldl Buf.step Buf.new).mark = ops.foldl markAfter (some 0) := by
  have key : ∀ (ops : List BufOp) (b : Buf), (ops.foldl Buf.step b).mark = ops.foldl markAfter b.mark := by
    intro ops
    induction ops with
    | nil => intro b; rfl
    | cons op ops ih =>
      intro b
      rw [List.foldl_cons, List.foldl_cons, ih]
      congr 1
      cases op with
      | truncate n =>
        simp only [Buf.step, Buf.truncate, markAfter]
        by_cases h : b.size < n
        · rw [if_pos h]
        · rw [if_neg h]
      | append bs => simp only [Buf.step, Buf.append, markAfter]; split <;> rfl
      | _ => rfl
  exact key ops Buf.new

example : [BufOp.fresh [1, 2], .setMark 1, .append [3]].foldl markAfter (some 0) = some 1 := by decide

end Clip
