import Verif.Spec.OptionCell
import Mathlib.Tactic.Cases
/-!
# C109: optional values
-/
set_option linter.unusedSimpArgs false
namespace Clip
open OptionCell
variable {τ : Type}
namespace OptionCell

def cellOf (o : Option τ) : Cell τ := ⟨o.isSome, o⟩

theorem holds_iff (m : Mem τ) (s : Vars τ) : Holds m s ↔ ∀ i, m.cell i = (s i).map cellOf := by
  refine forall_congr' fun i => ?_
  rcases s i with _ | _ | v <;> simp [cellOf]

open Classical in
theorem mem_set {s : Vars τ} {full : Finset Nat} (h : ∀ i, i ∈ full ↔ ∃ v, s i = some (some v)) (i : Nat) (o : Option (Option τ)) :
    ∃ full' : Finset Nat, (∀ k, k ∈ full' ↔ ∃ v, s.set i o k = some (some v)) ∧
      full'.card + (if (∃ v, s i = some (some v)) then 1 else 0) = full.card + (if (∃ v, o = some (some v)) then 1 else 0) := by
  classical
  by_cases ho : ∃ v, o = some (some v)
  · refine ⟨insert i full, ?_, ?_⟩
    · intro k
      by_cases hk : k = i
      · subst hk; simpa [Vars.set] using ho
      · simp [Vars.set, hk, h]
    · rw [if_pos ho]
      by_cases hi : i ∈ full
      · rw [Finset.insert_eq_of_mem hi, if_pos ((h i).1 hi)]
      · rw [Finset.card_insert_of_notMem hi, if_neg (fun x => hi ((h i).2 x))]
  · refine ⟨full.erase i, ?_, ?_⟩
    · intro k
      by_cases hk : k = i
      · subst hk
        simp only [Finset.notMem_erase, Vars.set, if_true, false_iff]
        exact ho
      · simp [Vars.set, hk, h]
    · rw [if_neg ho]
      by_cases hi : i ∈ full
      · rw [Finset.card_erase_of_mem hi, if_pos ((h i).1 hi)]
        have := Finset.card_pos.2 ⟨i, hi⟩
        omega
      · rw [Finset.erase_eq_of_notMem hi, if_neg (fun x => hi ((h i).2 x))]

open Classical in
/-- Changing one variable keeps the balance if the counts change accordingly. -/
theorem balanced_set {m m' : Mem τ} {s : Vars τ} (h : Balanced m s) (i : Nat) (o : Option (Option τ))
    (hc : m'.made + m.gone + (if (∃ v, s i = some (some v)) then 1 else 0) =
      m.made + m'.gone + (if (∃ v, o = some (some v)) then 1 else 0)) : Balanced m' (s.set i o) := by
  obtain ⟨full, h1, h2⟩ := h
  obtain ⟨full', h3, h4⟩ := mem_set h1 i o
  exact ⟨full', h3, by omega⟩

theorem put_map {m : Mem τ} {s : Vars τ} (h : ∀ i, m.cell i = (s i).map cellOf) (i : Nat) (o : Option (Option τ)) :
    ∀ k, (m.put i (o.map cellOf)).cell k = (s.set i o k).map cellOf := by
  intro k
  unfold Mem.put Vars.set
  by_cases hk : k = i
  · simp [hk]
  · simp [hk, h]

theorem step_ok {o : Op τ} {s s' : Vars τ} (hd : Does o s s') (m : Mem τ) (h : ∀ i, m.cell i = (s i).map cellOf)
    (hb : Balanced m s) (hself : ∀ i v, (o = .assign i i ∨ o = .moveAssign i i) → s i ≠ some (some v))
    (hth : ∀ i j, o ≠ .assignThrows i j) :
    ∃ m', o.run m = .ok m' ∧ (∀ i, m'.cell i = (s' i).map cellOf) ∧ Balanced m' s' := by
  cases hd with
  | @empty _ i hi =>
    refine ⟨m.put i (some ⟨false, none⟩), ?_, put_map h i (some none), balanced_set hb i _ ?_⟩
    · simp [Op.run, newEmpty, h, hi]
    · simp [Mem.put, hi]
  | @value _ i v hi =>
    refine ⟨m.construct i v, ?_, put_map h i (some (some v)), balanced_set hb i _ ?_⟩
    · simp [Op.run, newValue, h, hi]
    · simp [Mem.construct, Mem.put, hi]; omega
  | @copy _ i j o hi hj =>
    rcases o with _ | v
    · refine ⟨m.put i (some ⟨false, none⟩), ?_, put_map h i (some none), balanced_set hb i _ ?_⟩
      · simp [Op.run, newCopy, h, hi, hj, cellOf]
      · simp [Mem.put, hi]
    · refine ⟨m.construct i v, ?_, put_map h i (some (some v)), balanced_set hb i _ ?_⟩
      · simp [Op.run, newCopy, h, hi, hj, cellOf, Cell.source]
      · simp [Mem.construct, Mem.put, hi]; omega
  | @move _ i j o hi hj =>
    have hij : i ≠ j := by rintro rfl; rw [hi] at hj; cases hj
    rcases o with _ | v
    · refine ⟨m.put i (some ⟨false, none⟩), ?_, ?_, ?_⟩
      · simp [Op.run, newMove, h, hi, hj, cellOf]
      · have e : (s.set i (some none)).set j (some none) = s.set i (some none) := by
          funext k
          by_cases hk : k = j
          · subst hk; simp [Vars.set, hij.symm, hj]
          · simp [Vars.set, hk]
        rw [e]
        exact put_map h i (some none)
      · have e : (s.set i (some none)).set j (some none) = s.set i (some none) := by
          funext k
          by_cases hk : k = j
          · subst hk; simp [Vars.set, hij.symm, hj]
          · simp [Vars.set, hk]
        rw [e]
        refine balanced_set hb i _ ?_
        simp [Mem.put, hi]
    · refine ⟨{ ((m.construct i v).put j (some ⟨false, none⟩)) with gone := m.gone + 1 }, ?_, ?_, ?_⟩
      · simp only [Op.run, newMove, h, hi, hj, cellOf, Cell.source, Mem.destroy, Option.map_some, Option.map_none]
        simp only [Option.isSome_some, Bool.true_eq_false, if_false]
        congr 1
        simp only [Mem.construct, Mem.put]
        congr 1
        funext k
        by_cases hk : k = j <;> simp [hk]
      · exact put_map (put_map h i (some (some v))) j (some none)
      · refine balanced_set (m := m.construct i v) (balanced_set hb i _ ?_) j _ ?_
        · simp [Mem.construct, Mem.put, hi]; omega
        · simp [Mem.construct, Mem.put, Vars.set, hij.symm, hj]; omega
  | @drop _ i o hi =>
    rcases o with _ | v
    · refine ⟨m.put i none, ?_, put_map h i none, balanced_set hb i _ ?_⟩
      · simp [Op.run, dropCell, h, hi, cellOf]
      · simp [Mem.put, hi]
    · refine ⟨{ m.put i none with gone := m.gone + 1 }, ?_, put_map h i none, balanced_set hb i _ ?_⟩
      · simp only [Op.run, dropCell, h, hi, cellOf, Mem.destroy, Option.map_some, Option.isSome_some, if_true]
        congr 1
        simp only [Mem.put]
        congr 1
        funext k
        by_cases hk : k = i <;> simp [hk]
      · simp [Mem.put, hi]; omega
  | @assign _ i j p o hi hj =>
    by_cases hij : i = j
    · subst hij
      rw [hi] at hj; cases hj
      rcases p with _ | v
      · refine ⟨m.put i (some ⟨false, none⟩), ?_, put_map h i (some none), balanced_set hb i _ ?_⟩
        · simp [Op.run, assignCell, h, hi, cellOf]
        · simp [Mem.put, hi]
      · exact absurd hi (hself i v (.inl rfl))
    · rcases p with _ | w
      · rcases o with _ | v
        · refine ⟨m.put i (some ⟨false, none⟩), ?_, put_map h i (some none), balanced_set hb i _ ?_⟩
          · simp [Op.run, assignCell, h, hi, hj, cellOf]
          · simp [Mem.put, hi]
        · refine ⟨m.construct i v, ?_, put_map h i (some (some v)), balanced_set hb i _ ?_⟩
          · simp [Op.run, assignCell, h, hi, hj, cellOf, Cell.source]
          · simp [Mem.construct, Mem.put, hi]; omega
      · rcases o with _ | v
        · refine ⟨{ m.put i (some ⟨false, none⟩) with gone := m.gone + 1 }, ?_, put_map h i (some none),
            balanced_set hb i _ ?_⟩
          · simp only [Op.run, assignCell, h, hi, cellOf, Mem.destroy, Option.map_some, Option.isSome_some, if_true]
            simp only [Mem.put, if_neg (Ne.symm hij), h, hj, Option.map_some, cellOf]
            simp only [Option.isSome_none, if_true]
            congr 1
            congr 1
            funext k
            by_cases hk : k = i <;> simp [hk]
          · simp [Mem.put, hi]; omega
        · refine ⟨{ m.construct i v with gone := m.gone + 1 }, ?_, put_map h i (some (some v)), balanced_set hb i _ ?_⟩
          · simp only [Op.run, assignCell, h, hi, cellOf, Mem.destroy, Option.map_some, Option.isSome_some, if_true]
            simp only [Mem.put, if_neg (Ne.symm hij), h, hj, Option.map_some, cellOf, Cell.source]
            simp only [Option.isSome_some, Bool.true_eq_false, Bool.false_eq_true, if_false, Mem.construct, Mem.put]
            congr 1
            congr 1
            funext k
            by_cases hk : k = i <;> simp [hk, h]
          · simp [Mem.construct, Mem.put, hi]; omega
  | @moveAssign _ i j p o hij hi hj =>
    have e : o = none → (s.set i (some none)).set j (some none) = s.set i (some none) := by
      rintro rfl
      funext k
      by_cases hk : k = j
      · subst hk; simp [Vars.set, hij.symm, hj]
      · simp [Vars.set, hk]
    rcases p with _ | w
    · rcases o with _ | v
      · refine ⟨m.put i (some ⟨false, none⟩), ?_, ?_, ?_⟩
        · simp [Op.run, moveAssignCell, h, hi, hj, cellOf]
        · rw [e rfl]; exact put_map h i (some none)
        · rw [e rfl]; refine balanced_set hb i _ ?_
          simp [Mem.put, hi]
      · refine ⟨{ ((m.construct i v).put j (some ⟨false, none⟩)) with gone := m.gone + 1 }, ?_, ?_, ?_⟩
        · simp only [Op.run, moveAssignCell, h, hi, hj, cellOf, Cell.source, Mem.destroy, Option.map_some]
          simp only [Option.isSome_some, Option.isSome_none, Bool.true_eq_false, Bool.false_eq_true, if_false, h, hj,
            Option.map_some, cellOf]
          congr 1
          simp only [Mem.construct, Mem.put]
          congr 1
          funext k
          by_cases hk : k = j <;> simp [hk]
        · exact put_map (put_map h i (some (some v))) j (some none)
        · refine balanced_set (m := m.construct i v) (balanced_set hb i _ ?_) j _ ?_
          · simp [Mem.construct, Mem.put, hi]; omega
          · simp [Mem.construct, Mem.put, Vars.set, hij.symm, hj]; omega
    · rcases o with _ | v
      · refine ⟨{ m.put i (some ⟨false, none⟩) with gone := m.gone + 1 }, ?_, ?_, ?_⟩
        · simp only [Op.run, moveAssignCell, h, hi, cellOf, Mem.destroy, Option.map_some, Option.isSome_some, if_true]
          simp only [Mem.put, if_neg (Ne.symm hij), h, hj, Option.map_some, cellOf]
          simp only [Option.isSome_none, if_true]
          congr 1
          congr 1
          funext k
          by_cases hk : k = i <;> simp [hk]
        · rw [e rfl]; exact put_map h i (some none)
        · rw [e rfl]; refine balanced_set hb i _ ?_
          simp [Mem.put, hi]; omega
      · refine ⟨{ ((m.construct i v).put j (some ⟨false, none⟩)) with gone := m.gone + 1 + 1 }, ?_, ?_, ?_⟩
        · simp only [Op.run, moveAssignCell, h, hi, cellOf, Mem.destroy, Option.map_some, Option.isSome_some, if_true]
          simp only [Mem.put, if_neg (Ne.symm hij), h, hj, Option.map_some, cellOf, Cell.source]
          simp only [Option.isSome_some, Bool.true_eq_false, Bool.false_eq_true, if_false, Mem.construct, Mem.put]
          congr 1
          congr 1
          funext k
          by_cases hk : k = j
          · simp [hk]
          · by_cases hk' : k = i <;> simp [hk, hk', hij, h]
        · exact put_map (put_map h i (some (some v))) j (some none)
        · refine balanced_set (m := { m.construct i v with gone := m.gone + 1 }) (balanced_set hb i _ ?_) j _ ?_
          · simp [Mem.construct, Mem.put, hi]; omega
          · simp [Mem.construct, Mem.put, Vars.set, hij.symm, hj]; omega
  | @moveSelf _ i p hi =>
    rcases p with _ | v
    · have e : s = s.set i (some none) := by
        funext k
        by_cases hk : k = i
        · subst hk; simp [Vars.set, hi]
        · simp [Vars.set, hk]
      refine ⟨m.put i (some ⟨false, none⟩), ?_, ?_, ?_⟩
      · simp [Op.run, moveAssignCell, h, hi, cellOf]
      · have := put_map h i (some none)
        rw [← e] at this; exact this
      · have := balanced_set (m' := m.put i (some ⟨false, none⟩)) hb i (some none) (by simp [Mem.put, hi])
        rw [← e] at this; exact this
    · exact absurd hi (hself i v (.inr rfl))
  | assignThrows _ _ => exact absurd rfl (hth _ _)

end OptionCell

/-- C109: for every program that uses optional values as such — of whatever length — and never assigns one that has a value to
itself: nothing undefined happens, at the end every option holds exactly the value it should, and no value was lost or
destroyed twice.  (In full the property also covers self-assignment and exceptions; see `C109_self_assignment` and
`C109_throw`.) -/
theorem C109_history_partial (ops : List (Op τ)) (s : Vars τ) (hd : DoesAll ops (fun _ => none) s)
    (hself : ∀ pre o post s₁ i v, ops = pre ++ o :: post → (o = .assign i i ∨ o = .moveAssign i i) →
      DoesAll pre (fun _ => none) s₁ → s₁ i ≠ some (some v))
    (hth : ∀ i j, Op.assignThrows i j ∉ ops) :
    ∃ m, runAll ops (Mem.start τ) = .ok m ∧ Holds m s ∧ Balanced m s := by
  have key : ∀ (done ops : List (Op τ)) (s₀ s : Vars τ) (m : Mem τ), DoesAll ops s₀ s →
      (∀ rest s₁, DoesAll rest s₀ s₁ → DoesAll (done ++ rest) (fun _ => none) s₁) →
      (∀ pre o post s₁ i v, done ++ ops = pre ++ o :: post → (o = .assign i i ∨ o = .moveAssign i i) →
        DoesAll pre (fun _ => none) s₁ → s₁ i ≠ some (some v)) →
      (∀ i j, Op.assignThrows i j ∉ ops) → (∀ i, m.cell i = (s₀ i).map cellOf) → Balanced m s₀ →
      ∃ m', runAll ops m = .ok m' ∧ Holds m' s ∧ Balanced m' s := by
    intro done ops
    induction ops generalizing done with
    | nil =>
      intro s₀ s m hd _ _ _ hm hb
      cases hd
      exact ⟨m, rfl, (holds_iff m s₀).2 hm, hb⟩
    | cons o os ih =>
      intro s₀ s m hd hpre hself hth hm hb
      cases hd with
      | cons h1 h2 =>
        obtain ⟨m₁, r1, r2, r3⟩ := step_ok h1 m hm hb
          (fun i v ho => hself done o os s₀ i v rfl ho (by simpa using hpre [] s₀ (.nil _)))
          (fun i j ho => hth i j (by simp [ho]))
        obtain ⟨m', q1, q2⟩ := ih (done ++ [o]) _ s m₁ h2
          (fun rest s₁ h => by simpa using hpre (o :: rest) s₁ (.cons h1 h))
          (fun pre o' post s₁ i v e => hself pre o' post s₁ i v (by simpa using e))
          (fun i j h => hth i j (List.mem_cons_of_mem _ h)) r2 r3
        exact ⟨m', by simp only [runAll, r1, q1], q2⟩
  exact key [] ops _ s (Mem.start τ) hd (fun rest s₁ h => by simpa using h) (by simpa using hself) hth (fun _ => rfl)
    ⟨∅, by simp, rfl⟩

/-- C109: at the end of a program, when all its options are gone, every value that was constructed has been destroyed. -/
theorem C109_no_leak (ops : List (Op τ)) (hd : DoesAll ops (fun _ => none) (fun _ => none))
    (hself : ∀ i, Op.assign i i ∉ ops ∧ Op.moveAssign i i ∉ ops) (hth : ∀ i j, Op.assignThrows i j ∉ ops) :
    ∃ m, runAll ops (Mem.start τ) = .ok m ∧ m.made = m.gone := by
  obtain ⟨m, h1, -, full, h3, h4⟩ := C109_history_partial ops _ hd (by
    intro pre o post s₁ i v e ho _
    rcases ho with rfl | rfl
    · exact absurd (by simp [e]) (hself i).1
    · exact absurd (by simp [e]) (hself i).2) hth
  refine ⟨m, h1, ?_⟩
  have : full = ∅ := by
    ext i; simp [h3]
  simpa [this] using h4

/-- C109: what can be asked of an option: whether it has a value, the value (undefined, or an exception, if there is none) and
the value or an alternative. -/
theorem C109_observe (m : Mem τ) (s : Vars τ) (h : Holds m s) (i : Nat) (o : Option τ) (hi : s i = some o) :
    ∃ c, m.cell i = some c ∧ c.full = o.isSome ∧ (∀ v, c.deref = .ok v ↔ o = some v) ∧ (c.deref = .undefined ↔ o = none) ∧
      (∀ v, c.get = .ok v ↔ o = some v) ∧ (c.get = .thrown ↔ o = none) ∧ ∀ w, c.valueOr w = .ok (o.getD w) := by
  refine ⟨cellOf o, by rw [(holds_iff m s).1 h, hi]; rfl, rfl, ?_⟩
  rcases o with _ | v <;> simp [cellOf, Cell.deref, Cell.get, Cell.source, Cell.valueOr]

/-- C109 (violated by the code): assigning an option that has a value to itself is undefined. -/
theorem C109_self_assignment (m : Mem τ) (s : Vars τ) (h : Holds m s) (i : Nat) (v : τ) (hi : s i = some (some v)) :
    Does (.assign i i) s s ∧ (Op.assign i i).run m = .undefined ∧ Does (.moveAssign i i) s s ∧
      (Op.moveAssign i i).run m = .undefined := by
  have hc := (holds_iff m s).1 h i
  rw [hi] at hc
  have e : s.set i (some (some v)) = s := by
    funext k
    by_cases hk : k = i
    · subst hk; simp [Vars.set, hi]
    · simp [Vars.set, hk]
  refine ⟨?_, ?_, .moveSelf hi, ?_⟩
  · have := Does.assign hi hi
    rwa [e] at this
  · simp [Op.run, assignCell, hc, cellOf, Mem.destroy, Mem.put, Cell.source]
  · simp [Op.run, moveAssignCell, hc, cellOf, Mem.destroy, Mem.put, Cell.source]

/-- C109 (violated by the code): if copying a value throws during an assignment to an option that has a value, this option is
left with a value that is already destroyed, and its end, whenever it comes, is undefined. -/
theorem C109_throw (m : Mem τ) (s : Vars τ) (h : Holds m s) (i j : Nat) (v w : τ) (hij : i ≠ j) (hi : s i = some (some v))
    (hj : s j = some (some w)) :
    ∃ m', (Op.assignThrows i j).run m = .ok m' ∧ (Op.drop i).run m' = .undefined := by
  have hc := (holds_iff m s).1 h i
  have hd := (holds_iff m s).1 h j
  rw [hi] at hc
  rw [hj] at hd
  refine ⟨{ m.put i (some ⟨true, none⟩) with gone := m.gone + 1 }, ?_, ?_⟩
  · simp [Op.run, assignCell, hc, hd, cellOf, Mem.destroy, Mem.put, Cell.source, Ne.symm hij]
  · simp [Op.run, dropCell, Mem.destroy, Mem.put]

/-- A program: two options, one is assigned to the other, then moved to a third; all end. -/
def OptionCell.exProgram : List (Op Nat) :=
  [.value 0 7, .empty 1, .assign 1 0, .move 2 1, .drop 0, .drop 1, .drop 2]

example : ∃ m, runAll OptionCell.exProgram (Mem.start Nat) = .ok m ∧ m.made = m.gone := by
  refine C109_no_leak _ ?_ (by simp [OptionCell.exProgram]) (by simp [OptionCell.exProgram])
  let s₀ : Vars Nat := fun _ => none
  let s₄ : Vars Nat := Vars.set (Vars.set (Vars.set (Vars.set (Vars.set s₀ 0 (some (some 7))) 1 (some none)) 1 (some (some 7))) 2
    (some (some 7))) 1 (some none)
  have e : s₀ = Vars.set (Vars.set (Vars.set s₄ 0 none) 1 none) 2 none := by
    funext k
    simp only [s₄, s₀, Vars.set]
    split_ifs <;> rfl
  show DoesAll _ s₀ s₀
  conv => rhs; rw [e]
  refine .cons (.value rfl) (.cons (.empty rfl) (.cons (.assign (p := none) (o := some 7) rfl rfl)
    (.cons (.move (o := some 7) rfl rfl) (.cons (.drop (o := some 7) rfl) (.cons (.drop (o := none) rfl)
    (.cons (.drop (o := some 7) rfl) (.nil _)))))))

end Clip
