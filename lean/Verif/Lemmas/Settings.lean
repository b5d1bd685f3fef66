import Verif.Lemmas.Eval
import Verif.Spec.Settings
import Verif.Model.Style
set_option linter.unusedSimpArgs false
namespace Clip
open Commands Settings
variable {σ : Type}

theorem walkRead_ok (fns : HandlerMap σ Fail) (cmds : List Expr) (s s' : σ) :
    walkRead fns cmds s = (s', none) ↔ Executed fns cmds s s' := by
  rw [← walk_strict_ok]
  unfold walkRead
  rcases walkStrict fns cmds s with ⟨t, (_ | _ | _ | _) | _⟩ <;> simp

theorem walkRead_cases (fns : HandlerMap σ Fail) (cmds : List Expr) (s : σ) :
    (∃ s', walkRead fns cmds s = (s', none) ∧ Executed fns cmds s s') ∨
    ∃ s' f, walkRead fns cmds s = (s', some f) ∧ ∀ t, ¬ Executed fns cmds s t := by
  cases h : walkRead fns cmds s with
  | mk s' o =>
    cases o with
    | none => exact .inl ⟨s', rfl, (walkRead_ok _ _ _ _).1 h⟩
    | some f =>
      refine .inr ⟨s', f, rfl, fun t ht => ?_⟩
      rw [(walkRead_ok _ _ _ _).2 ht] at h
      cases h

theorem nameOf_isValue {n : Expr} (h : n.isValue = true) (args : List Expr) :
    nameOf (.list (n :: args)) = some n.getValue := by
  cases n <;> simp_all [Expr.isValue, nameOf, Expr.getValue]

theorem nameOf_some {c : Expr} {w : Str} (h : nameOf c = some w) :
    ∃ n args, c = .list (n :: args) ∧ n.isValue = true ∧ n.getValue = w := by
  cases c with
  | list l =>
    cases l with
    | nil => simp [nameOf] at h
    | cons n args => cases n <;> simp_all [nameOf, Expr.isValue, Expr.getValue]
  | literal s => simp [nameOf] at h
  | value s => simp [nameOf] at h

theorem lastArgs_nil (name : Str) : lastArgs name [] = none := rfl

theorem lastArgs_cons (name : Str) {n : Expr} (hn : n.isValue = true) (args rest : List Expr) :
    lastArgs name (.list (n :: args) :: rest) =
      (lastArgs name rest).or (if n.getValue = name then some args else none) := by
  unfold lastArgs
  by_cases h : n.getValue = name
  · rw [List.filter_cons_of_pos (by rw [nameOf_isValue hn, h]; simp), if_pos h]
    cases hl : rest.filter (fun c => nameOf c == some name) with
    | nil => simp [argsOf]
    | cons a as => simp [List.getLast?_cons_cons, List.getLast?_cons]
  · rw [List.filter_cons_of_neg (by rw [nameOf_isValue hn]; simpa using h), if_neg h]
    simp

/-- A setting after executing a block. -/
theorem executed_final {α ε : Type} {fns : HandlerMap σ ε} {get : σ → α} {read : List Expr → α → Prop} {name : Str}
    (hset : ∀ h args s s₁, fns name = some h → h args s = (s₁, none) → read args (get s₁))
    (hkeep : ∀ n h args s s₁, n ≠ name → fns n = some h → h args s = (s₁, none) → get s₁ = get s)
    {cmds : List Expr} {s s' : σ} (he : Executed fns cmds s s') : Final read name cmds (get s) (get s') := by
  induction he with
  | nil s => simp [Final, lastArgs_nil]
  | @cons n args rest s s₁ s' h hn hf hr _ ih =>
    unfold Final at ih ⊢
    rw [lastArgs_cons name hn]
    cases hl : lastArgs name rest with
    | some as => rw [hl] at ih; simpa using ih
    | none =>
      rw [hl] at ih
      simp only [Option.none_or] at ih ⊢
      by_cases hnm : n.getValue = name
      · rw [if_pos hnm]; simp only; rw [ih]; exact hset h args s s₁ (hnm ▸ hf) hr
      · rw [if_neg hnm]; simp only; rw [ih]; exact hkeep _ h args s s₁ hnm hf hr

/-- A block whose commands succeed whatever the state is executed iff each of them is acceptable. -/
theorem executed_iff_all {ε : Type} {fns : HandlerMap σ ε} {ok : Str → List Expr → Prop}
    (h1 : ∀ n h args s s₁, fns n = some h → h args s = (s₁, none) → ok n args)
    (h2 : ∀ n args s, ok n args → ∃ h s₁, fns n = some h ∧ h args s = (s₁, none)) (cmds : List Expr) (s : σ) :
    (∃ s', Executed fns cmds s s') ↔ ∀ c ∈ cmds, ∃ n, nameOf c = some n ∧ ok n (argsOf c) := by
  constructor
  · rintro ⟨s', he⟩
    induction he with
    | nil s => simp
    | @cons n args rest s s₁ s' h hn hf hr _ ih =>
      intro c hc
      rcases List.mem_cons.1 hc with rfl | hc
      · exact ⟨n.getValue, nameOf_isValue hn _, h1 _ h args s s₁ hf hr⟩
      · exact ih c hc
  · intro hall
    induction cmds generalizing s with
    | nil => exact ⟨s, .nil _⟩
    | cons c rest ih =>
      obtain ⟨w, hw, hok⟩ := hall c (by simp)
      obtain ⟨n, args, rfl, hn, rfl⟩ := nameOf_some hw
      obtain ⟨h, s₁, hf, hr⟩ := h2 n.getValue args s hok
      obtain ⟨s', he⟩ := ih s₁ (fun c hc => hall c (by simp [hc]))
      exact ⟨s', .cons hn hf hr he⟩

/-- A relation that holds step by step. -/
theorem executed_accum {ε : Type} {fns : HandlerMap σ ε} {α : Type} {get : σ → α} {R : List Expr → α → α → Prop}
    (hnil : ∀ a, R [] a a)
    (hcons : ∀ n h args rest s s₁ a, fns n = some h → h args s = (s₁, none) → R rest (get s₁) a →
      ∀ e : Expr, e.isValue = true → e.getValue = n → R (.list (e :: args) :: rest) (get s) a)
    {cmds : List Expr} {s s' : σ} (he : Executed fns cmds s s') : R cmds (get s) (get s') := by
  induction he with
  | nil s => exact hnil _
  | @cons n args rest s s₁ s' h hn hf hr _ ih => exact hcons _ h args rest s s₁ _ hf hr ih n hn rfl

theorem field_ok {α : Type} {read : List Expr → σ → Except Fail α} {put : σ → α → σ} {args : List Expr} {s s₁ : σ} :
    field read put args s = (s₁, none) ↔ ∃ v, read args s = .ok v ∧ s₁ = put s v := by
  unfold field
  cases read args s with
  | ok v => simp [eq_comm]
  | error f => simp

end Clip
