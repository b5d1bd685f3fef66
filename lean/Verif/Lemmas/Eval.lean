import Verif.Spec.Commands
import Verif.Lemmas.Sexpr
set_option linter.unusedSimpArgs false
namespace Clip
open Commands
variable {σ ε : Type}

theorem walk_strict_ok (fns : HandlerMap σ ε) (cmds : List Expr) (s s' : σ) :
    walkStrict fns cmds s = (s', .ok ()) ↔ Executed fns cmds s s' := by
  induction cmds generalizing s with
  | nil =>
    simp only [walkStrict, walkMap]
    constructor
    · intro h; cases h; exact .nil _
    · intro h; cases h; rfl
  | cons e rest ih =>
    match e with
    | .literal w => 
      simp only [walkStrict, walkMap]
      constructor
      · intro h; cases h
      · intro h; cases h
    | .value w =>
      simp only [walkStrict, walkMap]
      constructor
      · intro h; cases h
      · intro h; cases h
    | .list [] =>
      simp only [walkStrict, walkMap]
      constructor
      · intro h; cases h
      · intro h; cases h
    | .list (n :: args) =>
      simp only [walkStrict, walkMap]
      by_cases hn : n.isValue = true
      · simp only [hn, if_true]
        cases hf : fns n.getValue with
        | none =>
          constructor
          · intro h; cases h
          · intro h; cases h with | cons _ h2 => simp [hf] at h2
        | some h =>
          simp only
          cases hr : h args s with
          | mk s₁ o =>
            cases o with
            | none =>
              have ih := ih s₁
              simp only [walkStrict] at ih
              simp only
              rw [ih]
              constructor
              · intro he; exact .cons hn hf hr he
              · intro he
                cases he with
                | cons _ h2 h3 h4 =>
                  rw [hf] at h2; cases h2; rw [hr] at h3; cases h3; exact h4
            | some e =>
              constructor
              · intro h; cases h
              · intro he
                cases he with
                | cons _ h2 h3 h4 => rw [hf] at h2; cases h2; rw [hr] at h3; cases h3
      · simp only [hn, Bool.false_eq_true, if_false]
        constructor
        · intro h; cases h
        · intro h; cases h with | cons h1 => exact absurd h1 hn

theorem walk_strict_total (fns : HandlerMap σ ε) (cmds : List Expr) (s : σ) :
    (∃ s', Executed fns cmds s s') ∨
    ∃ s' e, walkStrict fns cmds s = (s', .error e) ∧
      ∃ pre c post sm, cmds = pre ++ c :: post ∧ Executed fns pre s sm ∧ Fails fns c sm s' e := by
  induction cmds generalizing s with
  | nil => exact .inl ⟨s, .nil _⟩
  | cons c rest ih =>
    have stop : ∀ s' e, Fails fns c s s' e → walkStrict fns (c :: rest) s = (s', .error e) →
      ∃ s' e, walkStrict fns (c :: rest) s = (s', .error e) ∧
      ∃ pre c' post sm, c :: rest = pre ++ c' :: post ∧ Executed fns pre s sm ∧ Fails fns c' sm s' e :=
      fun s' e h1 h2 => ⟨s', e, h2, [], c, rest, s, rfl, .nil _, h1⟩
    match c with
    | .literal w => exact .inr (stop s .notList (.notList rfl) rfl)
    | .value w => exact .inr (stop s .notList (.notList rfl) rfl)
    | .list [] => exact .inr (stop s .notLiteral .empty rfl)
    | .list (n :: args) =>
      by_cases hn : n.isValue = true
      · cases hf : fns n.getValue with
        | none =>
          exact .inr (stop s _ (.unknown hn hf) (by simp [walkStrict, walkMap, hn, hf]))
        | some h =>
          cases hr : h args s with
          | mk s₁ o =>
            cases o with
            | none =>
              rcases ih s₁ with ⟨s', he⟩ | ⟨s', e, h1, pre, c, post, sm, h2, h3, h4⟩
              · exact .inl ⟨s', .cons hn hf hr he⟩
              · refine .inr ⟨s', e, ?_, .list (n :: args) :: pre, c, post, sm, by simp [h2],
                  .cons hn hf hr h3, h4⟩
                rw [← h1]; simp [walkStrict, walkMap, hn, hf, hr]
            | some e =>
              exact .inr (stop s₁ _ (.handler hn hf hr) (by simp [walkStrict, walkMap, hn, hf, hr]))
      · cases n with
        | list l => exact .inr (stop s .notLiteral .noName rfl)
        | literal w => exact absurd rfl hn
        | value w => exact absurd rfl hn

theorem Commands.Executed.det {fns : HandlerMap σ ε} {cmds s s₁ s₂} (h₁ : Executed fns cmds s s₁)
    (h₂ : Executed fns cmds s s₂) : s₁ = s₂ := by
  have a := (walk_strict_ok fns cmds s s₁).2 h₁
  have b := (walk_strict_ok fns cmds s s₂).2 h₂
  rw [a] at b
  simpa using b

theorem Commands.Executed.append {fns : HandlerMap σ ε} {c₁ c₂ s s₁ s₂} (h₁ : Executed fns c₁ s s₁)
    (h₂ : Executed fns c₂ s₁ s₂) : Executed fns (c₁ ++ c₂) s s₂ := by
  induction h₁ with
  | nil => exact h₂
  | cons a b c _ ih => exact .cons a b c (ih h₂)

theorem Commands.Executed.of_append {fns : HandlerMap σ ε} {c₁ c₂ s s₂}
    (h : Executed fns (c₁ ++ c₂) s s₂) : ∃ s₁, Executed fns c₁ s s₁ ∧ Executed fns c₂ s₁ s₂ := by
  induction c₁ generalizing s with
  | nil => exact ⟨s, .nil _, h⟩
  | cons c cs ih =>
    cases h with
    | cons a b d e =>
      obtain ⟨s₁, h1, h2⟩ := ih e
      exact ⟨s₁, .cons a b d h1, h2⟩

theorem Fails.not_executed {fns : HandlerMap σ ε} {c post s s' s'' e} (hf : Fails fns c s s' e)
    (he : Executed fns (c :: post) s s'') : False := by
  cases he with
  | cons a b d _ =>
    cases hf with
    | notList h => simp [Expr.isList] at h
    | noName => simp [Expr.isValue] at a
    | unknown _ h => rw [h] at b; cases b
    | handler _ h1 h2 => rw [h1] at b; cases b; rw [h2] at d; cases d

theorem Fails.det {fns : HandlerMap σ ε} {c s s₁ s₂ e₁ e₂} (h₁ : Fails fns c s s₁ e₁)
    (h₂ : Fails fns c s s₂ e₂) : s₁ = s₂ ∧ e₁ = e₂ := by
  cases h₁ with
  | notList h =>
    cases h₂ <;> simp [Expr.isList] at h ⊢
  | empty => cases h₂ with
    | notList h => simp [Expr.isList] at h
    | empty => exact ⟨rfl, rfl⟩
  | noName => cases h₂ with
    | notList h => simp [Expr.isList] at h
    | noName => exact ⟨rfl, rfl⟩
    | unknown h => simp [Expr.isValue] at h
    | handler h => simp [Expr.isValue] at h
  | unknown a b => cases h₂ with
    | notList h => simp [Expr.isList] at h
    | noName => simp [Expr.isValue] at a
    | unknown => exact ⟨rfl, rfl⟩
    | handler _ h => rw [b] at h; cases h
  | handler a b c => cases h₂ with
    | notList h => simp [Expr.isList] at h
    | noName => simp [Expr.isValue] at a
    | unknown _ h => rw [b] at h; cases h
    | handler _ h h' => rw [b] at h; cases h; rw [c] at h'; cases h'; exact ⟨rfl, rfl⟩

/-- The pass-through walk, in general: what is accumulated. -/
theorem walk_unparsed (fns : HandlerMap σ ε) (cmds : List Expr) (s s' : σ) (out tail : List Expr)
    (hc : ∀ c ∈ cmds, isCommand c = true)
    (he : Executed fns (cmds.filter (isKnown fns)) s s') :
    walkMap fns (some (out, tail)) cmds s =
      (s', .ok (some (if cmds.all (isKnown fns) then (out, tail) else
        (out ++ cmds.filter (fun c => !isKnown fns c), trailing fns cmds)))) := by
  induction cmds generalizing s out tail with
  | nil =>
    cases he
    simp [walkMap]
  | cons c rest ih =>
    simp only [List.mem_cons, forall_eq_or_imp] at hc
    obtain ⟨hc1, hc2⟩ := hc
    match c with
    | .literal w => simp [isCommand] at hc1
    | .value w => simp [isCommand] at hc1
    | .list [] => simp [isCommand] at hc1
    | .list (n :: args) =>
      have hn : n.isValue = true := hc1
      simp only [walkMap, hn, if_true]
      cases hf : fns n.getValue with
      | none =>
        have hk : isKnown fns (.list (n :: args)) = false := by simp [isKnown, hf]
        simp only [exprCloneAll, exprCopyNode_eq, exprCloneAll_eq]
        have he' : Executed fns (rest.filter (isKnown fns)) s s' := by simpa [hk] using he
        rw [ih s _ _ hc2 he']
        simp only [List.all_cons, hk, Bool.false_and, Bool.false_eq_true, if_false,
          List.filter_cons, Bool.not_false, if_true, trailing]
        by_cases hall : rest.all (isKnown fns) = true
        · have hfil : rest.filter (fun c => !isKnown fns c) = [] := by
            rw [List.filter_eq_nil_iff]
            intro a ha
            have := (List.all_eq_true.1 hall) a ha
            simp [this]
          simp [hall, hfil]
        · simp only [hall, Bool.false_eq_true, if_false, List.append_assoc, List.cons_append,
            List.nil_append]
      | some h =>
        have hk : isKnown fns (.list (n :: args)) = true := by simp [isKnown, hf, hn]
        simp only
        rw [List.filter_cons] at he
        simp only [hk, if_true] at he
        cases he with
        | cons a b d e =>
          rename_i s₁ h'
          rw [hf] at b; cases b
          rw [d]
          simp only
          rw [ih s₁ out tail hc2 e]
          simp [hk, trailing]

/-- A successful pass-through walk executed exactly the known commands. -/
theorem walk_unparsed_ok (fns : HandlerMap σ ε) (cmds : List Expr) (s s' : σ) (p : List Expr × List Expr)
    (r : Option (List Expr × List Expr)) (h : walkMap fns (some p) cmds s = (s', .ok r)) :
    (∀ c ∈ cmds, isCommand c = true) ∧ Executed fns (cmds.filter (isKnown fns)) s s' := by
  induction cmds generalizing s p with
  | nil => simp [walkMap] at h; simp [h.1]; exact .nil _
  | cons c rest ih =>
    obtain ⟨out, tail⟩ := p
    match c with
    | .literal w => simp [walkMap] at h
    | .value w => simp [walkMap] at h
    | .list [] => simp [walkMap] at h
    | .list (n :: args) =>
      simp only [walkMap] at h
      by_cases hn : n.isValue = true
      · simp only [hn, if_true] at h
        cases hf : fns n.getValue with
        | none =>
          rw [hf] at h
          simp only [exprCloneAll] at h
          have := ih s _ h
          have hk : isKnown fns (.list (n :: args)) = false := by simp [isKnown, hf]
          refine ⟨?_, by simpa [hk] using this.2⟩
          simp only [List.mem_cons, forall_eq_or_imp]
          exact ⟨hn, this.1⟩
        | some fn =>
          rw [hf] at h
          simp only at h
          cases hr : fn args s with
          | mk s₁ o =>
            rw [hr] at h
            cases o with
            | some e => simp at h
            | none =>
              simp only at h
              have := ih s₁ _ h
              have hk : isKnown fns (.list (n :: args)) = true := by simp [isKnown, hf, hn]
              refine ⟨?_, ?_⟩
              · simp only [List.mem_cons, forall_eq_or_imp]
                exact ⟨hn, this.1⟩
              · rw [List.filter_cons]; simp only [hk, if_true]
                exact .cons hn hf hr this.2
      · simp [hn] at h

theorem walkLax_ok (fns : HandlerMap σ ε) (cmds : List Expr) (s s' : σ) :
    walkLax fns cmds s = (s', .ok ()) ↔
      (∀ c ∈ cmds, isCommand c = true) ∧ Executed fns (cmds.filter (isKnown fns)) s s' := by
  constructor
  · intro h
    unfold walkLax walkUnparsed at h
    cases hw : walkMap fns (some ([], [])) cmds s with
    | mk s₁ r =>
      rw [hw] at h
      cases r with
      | error e => simp at h
      | ok o =>
        have : s₁ = s' := by
          cases o with
          | none => simpa using h
          | some p => simpa using h
        subst this
        exact walk_unparsed_ok _ _ _ _ _ _ hw
  · rintro ⟨hc, he⟩
    unfold walkLax walkUnparsed
    rw [walk_unparsed fns cmds s s' [] [] hc he]

/-- Dropping an unknown command does not change a pass-through walk with dropped left-overs. -/
theorem walkMap_drop (fns : HandlerMap σ ε) (c : Expr) (hc : isCommand c = true)
    (hk : isKnown fns c = false) (pre post : List Expr) (p q : List Expr × List Expr) (s : σ) :
    ((walkMap fns (some p) (pre ++ c :: post) s).1 = (walkMap fns (some q) (pre ++ post) s).1) ∧
    (∀ e, (walkMap fns (some p) (pre ++ c :: post) s).2 = .error e ↔
      (walkMap fns (some q) (pre ++ post) s).2 = .error e) := by
  have base : ∀ (cmds : List Expr) (p q : List Expr × List Expr) (s : σ),
      ((walkMap fns (some p) cmds s).1 = (walkMap fns (some q) cmds s).1) ∧
      (∀ e, (walkMap fns (some p) cmds s).2 = .error e ↔
        (walkMap fns (some q) cmds s).2 = .error e) := by
    intro cmds
    induction cmds with
    | nil => intro p q s; simp [walkMap]
    | cons d rest ih =>
      intro p q s
      match d with
      | .literal w => simp [walkMap]
      | .value w => simp [walkMap]
      | .list [] => simp [walkMap]
      | .list (n :: args) =>
        simp only [walkMap]
        by_cases hn : n.isValue = true
        · simp only [hn, if_true]
          cases fns n.getValue with
          | none => obtain ⟨a, b⟩ := p; obtain ⟨c, d⟩ := q; simp only [exprCloneAll]; exact ih _ _ s
          | some fn =>
            simp only
            cases fn args s with
            | mk s₁ o => cases o with
              | none => exact ih _ _ s₁
              | some e => simp
        · simp [hn]
  induction pre generalizing p q s with
  | nil =>
    simp only [List.nil_append]
    match c with
    | .literal w => simp [isCommand] at hc
    | .value w => simp [isCommand] at hc
    | .list [] => simp [isCommand] at hc
    | .list (n :: args) =>
      have hn : n.isValue = true := hc
      have hf : fns n.getValue = none := by
        cases hf : fns n.getValue with
        | none => rfl
        | some h => simp [isKnown, hn, hf] at hk
      rw [walkMap]
      obtain ⟨a, b⟩ := p
      simp only [hn, if_true, hf, exprCloneAll]
      exact base _ _ _ s
  | cons d rest ih =>
    simp only [List.cons_append]
    match d with
    | .literal w => simp [walkMap]
    | .value w => simp [walkMap]
    | .list [] => simp [walkMap]
    | .list (n :: args) =>
      simp only [walkMap]
      by_cases hn : n.isValue = true
      · simp only [hn, if_true]
        cases fns n.getValue with
        | none => obtain ⟨a, b⟩ := p; obtain ⟨c, d⟩ := q; simp only [exprCloneAll]; exact ih _ _ s
        | some fn =>
          simp only
          cases fn args s with
          | mk s₁ o => cases o with
            | none => exact ih _ _ s₁
            | some e => simp
      · simp [hn]

theorem walkLax_eq (fns : HandlerMap σ ε) (cmds : List Expr) (s : σ) :
    walkLax fns cmds s = ((walkMap fns (some ([], [])) cmds s).1,
      match (walkMap fns (some ([], [])) cmds s).2 with
      | .ok _ => .ok ()
      | .error e => .error e) := by
  unfold walkLax walkUnparsed
  cases walkMap fns (some ([], [])) cmds s with
  | mk s₁ r =>
    cases r with
    | error e => rfl
    | ok o => cases o <;> rfl

theorem walkLax_drop (fns : HandlerMap σ ε) (c : Expr) (hc : isCommand c = true)
    (hk : isKnown fns c = false) (pre post : List Expr) (s : σ) :
    walkLax fns (pre ++ c :: post) s = walkLax fns (pre ++ post) s := by
  have h := walkMap_drop fns c hc hk pre post ([], []) ([], []) s
  rw [walkLax_eq, walkLax_eq, h.1]
  congr 1
  cases h1 : (walkMap fns (some ([], [])) (pre ++ c :: post) s).2 with
  | error e => rw [(h.2 e).1 h1]
  | ok o =>
    cases h2 : (walkMap fns (some ([], [])) (pre ++ post) s).2 with
    | error e => rw [(h.2 e).2 h2] at h1; cases h1
    | ok o => rfl

end Clip
