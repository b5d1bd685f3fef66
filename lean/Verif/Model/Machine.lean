/-!
# Loops as step functions

A C++ `while` loop whose termination is itself in question is modelled by a step
function `σ → σ ⊕ ρ`: one iteration either continues with a new state or returns.
`Returns` and `Diverges` are the two observable outcomes.  (Infrastructure; models no
particular file.)
-/
namespace Clip

/-- Run at most `n` iterations. -/
def runFor {σ ρ : Type} (step : σ → σ ⊕ ρ) : Nat → σ → Option ρ
  | 0, _ => none
  | n + 1, s =>
    match step s with
    | .inl s' => runFor step n s'
    | .inr r => some r

/-- The loop started in `s` returns `r` after finitely many iterations. -/
def Returns {σ ρ : Type} (step : σ → σ ⊕ ρ) (s : σ) (r : ρ) : Prop :=
  ∃ n, runFor step n s = some r

/-- The loop started in `s` never returns. -/
def Diverges {σ ρ : Type} (step : σ → σ ⊕ ρ) (s : σ) : Prop :=
  ∀ n, runFor step n s = none

section
variable {σ ρ : Type} {step : σ → σ ⊕ ρ}

theorem runFor_mono {n m : Nat} {s : σ} {r : ρ} (h : runFor step n s = some r) (hm : n ≤ m) :
    runFor step m s = some r := by
  induction n generalizing s m with
  | zero => simp [runFor] at h
  | succ n ih =>
    obtain ⟨m, rfl⟩ : ∃ k, m = k + 1 := ⟨m - 1, by omega⟩
    unfold runFor at h ⊢
    split at h
    · exact ih h (by omega)
    · exact h

theorem Returns.unique {s : σ} {r r' : ρ} (h : Returns step s r) (h' : Returns step s r') :
    r = r' := by
  obtain ⟨n, hn⟩ := h
  obtain ⟨m, hm⟩ := h'
  have a := runFor_mono hn (Nat.le_max_left n m)
  have b := runFor_mono hm (Nat.le_max_right n m)
  rw [a] at b
  exact Option.some.inj b

theorem Returns.of_step {s s' : σ} {r : ρ} (h : step s = .inl s') :
    Returns step s r ↔ Returns step s' r := by
  constructor
  · rintro ⟨n, hn⟩
    cases n with
    | zero => simp [runFor] at hn
    | succ n => refine ⟨n, ?_⟩; simpa [runFor, h] using hn
  · rintro ⟨n, hn⟩
    exact ⟨n + 1, by simpa [runFor, h] using hn⟩

theorem Returns.of_done {s : σ} {r : ρ} (h : step s = .inr r) : Returns step s r :=
  ⟨1, by simp [runFor, h]⟩

theorem Diverges.of_step {s s' : σ} (h : step s = .inl s') :
    Diverges step s ↔ Diverges step s' := by
  constructor
  · intro hd n
    have := hd (n + 1)
    simpa [runFor, h] using this
  · intro hd n
    cases n with
    | zero => rfl
    | succ n => simpa [runFor, h] using hd n

theorem Diverges.not_returns {s : σ} {r : ρ} (h : Diverges step s) : ¬ Returns step s r := by
  rintro ⟨n, hn⟩
  rw [h n] at hn
  cases hn

theorem diverges_iff {s : σ} : Diverges step s ↔ ∀ r, ¬ Returns step s r := by
  constructor
  · exact fun h r => h.not_returns
  · intro h n
    cases hr : runFor step n s with
    | none => rfl
    | some r => exact absurd ⟨n, hr⟩ (h r)

/-- A set of states closed under continuing, in which no state returns, diverges. -/
theorem Diverges.of_invariant (P : σ → Prop) (hP : ∀ s, P s → ∃ s', step s = .inl s' ∧ P s')
    {s : σ} (hs : P s) : Diverges step s := by
  intro n
  induction n generalizing s with
  | zero => rfl
  | succ n ih =>
    obtain ⟨s', h, hs'⟩ := hP s hs
    simpa [runFor, h] using ih hs'

/-- Reaching `t` from `s` in finitely many iterations. -/
inductive Reach (step : σ → σ ⊕ ρ) : σ → σ → Prop
  | refl (s) : Reach step s s
  | head {s s' t} : step s = .inl s' → Reach step s' t → Reach step s t

theorem Reach.trans {s t u : σ} (h : Reach step s t) (h' : Reach step t u) : Reach step s u := by
  induction h with
  | refl => exact h'
  | head h _ ih => exact .head h (ih h')

theorem Reach.single {s t : σ} (h : step s = .inl t) : Reach step s t := .head h (.refl _)

theorem Reach.returns_iff {s t : σ} {r : ρ} (h : Reach step s t) :
    Returns step s r ↔ Returns step t r := by
  induction h with
  | refl => exact Iff.rfl
  | head h _ ih => exact (Returns.of_step h).trans ih

theorem Reach.diverges_iff {s t : σ} (h : Reach step s t) :
    Diverges step s ↔ Diverges step t := by
  induction h with
  | refl => exact Iff.rfl
  | head h _ ih => exact (Diverges.of_step h).trans ih

end
end Clip
