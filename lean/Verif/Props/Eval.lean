import Verif.Lemmas.Eval
/-! Property theorems C08, C09, C40, C44, C48, C49 (command dispatch and evaluation). -/
namespace Clip
open Commands
variable {σ ε : Type}

/-- C08: a strict walk succeeds iff all commands can be executed in order; it fails iff some command is the
first that cannot be executed, and then exactly the commands before it have been executed. -/
theorem C08_strict_dispatch (fns : HandlerMap σ ε) (cmds : List Expr) (s s' : σ) :
    (walkStrict fns cmds s = (s', .ok ()) ↔ Executed fns cmds s s') ∧
    (∀ e, walkStrict fns cmds s = (s', .error e) ↔
      ∃ pre c post sm, cmds = pre ++ c :: post ∧ Executed fns pre s sm ∧ Fails fns c sm s' e) := by
  refine ⟨walk_strict_ok fns cmds s s', fun e => ⟨fun h => ?_, ?_⟩⟩
  · rcases walk_strict_total fns cmds s with ⟨s₁, h1⟩ | ⟨s₁, e₁, h1, h2⟩
    · rw [(walk_strict_ok fns cmds s s₁).2 h1] at h; simp at h
    · rw [h1] at h; simp only [Prod.mk.injEq, Except.error.injEq] at h
      obtain ⟨rfl, rfl⟩ := h; exact h2
  · rintro ⟨pre, c, post, sm, rfl, h1, h2⟩
    rcases walk_strict_total fns (pre ++ c :: post) s with ⟨s₁, h3⟩ | ⟨s₁, e₁, h3, pre', c', post', sm', h4, h5, h6⟩
    · obtain ⟨s₂, h4, h5⟩ := h3.of_append
      cases h1.det h4
      exact absurd h5 (fun h => Fails.not_executed h2 h)
    · rw [h3]
      -- the failing command is unique
      have : pre = pre' ∧ c = c' := by
        clear h3
        induction pre generalizing pre' s with
        | nil =>
          cases pre' with
          | nil => simp at h4; exact ⟨rfl, h4.1⟩
          | cons d ds =>
            simp at h4
            obtain ⟨rfl, rfl⟩ := h4
            cases h1
            exact absurd h5 (fun h => Fails.not_executed h2 h)
        | cons d ds ih =>
          cases pre' with
          | nil =>
            simp at h4
            obtain ⟨rfl, h4⟩ := h4
            cases h5
            exact absurd h1 (fun h => Fails.not_executed h6 h)
          | cons d' ds' =>
            simp at h4
            obtain ⟨rfl, h4⟩ := h4
            cases h1 with
            | cons a b f g =>
              cases h5 with
              | cons a' b' f' g' =>
                rw [b] at b'; cases b'; rw [f] at f'; cases f'
                have := ih _ g ds' h4 g'
                exact ⟨by rw [this.1], this.2⟩
      obtain ⟨rfl, rfl⟩ := this
      cases h1.det h5
      have := Fails.det h2 h6
      rw [this.1, this.2]

/-- A table with two commands over a counter. -/
def C08_table : HandlerMap Nat Unit := fun n =>
  if n = "inc".toList then some fun args s => (s + 1 + args.length, none)
  else if n = "fail".toList then some fun _ s => (s + 100, some ())
  else none
example : Executed C08_table [cmd "inc" [], cmd "inc" [.literal []]] 0 3 ∧
    Fails C08_table (cmd "fail" []) 3 103 (.handler ()) ∧
    Fails C08_table (cmd "foo" []) 3 3 (.invalidCommand "foo".toList) :=
  ⟨.cons rfl (by simp [Expr.getValue]; rfl) rfl (.cons rfl (by simp [Expr.getValue]; rfl) rfl (.nil _)),
   .handler rfl (by simp [Expr.getValue]; rfl) rfl,
   .unknown (name := .literal "foo".toList) rfl (by simp [C08_table, Expr.getValue])⟩

/-- C09 (violated by the code): `a` is consumed by the first stage and nevertheless handed on. -/
theorem C09_passthrough_fails : ∃ (fns : HandlerMap Nat Unit) (cmds : List Expr),
    (walkUnparsed fns cmds 0 = (1, .ok [cmd "b" [], cmd "a" []])) ∧
    cmds.filter (fun c => !isKnown fns c) = [cmd "b" []] := by
  refine ⟨fun n => if n = "a".toList then some fun _ s => (s + 1, none) else none,
    [cmd "b" [], cmd "a" []], ?_, ?_⟩
  · simp [walkUnparsed, walkMap, cmd, Expr.isValue, Expr.getValue, exprCloneAll, exprCopyNode]
  · simp [isKnown, cmd, Expr.isValue, Expr.getValue]

/-- C09, what the code does: exactly the known commands are executed, in order; handed on are the
unknown commands in order, followed by all commands after the last unknown one. -/
theorem C09_passthrough_exact (fns : HandlerMap σ ε) (cmds : List Expr) (s s' : σ)
    (hc : ∀ c ∈ cmds, isCommand c = true)
    (he : Executed fns (cmds.filter (isKnown fns)) s s') :
    walkUnparsed fns cmds s =
      (s', .ok (cmds.filter (fun c => !isKnown fns c) ++ trailing fns cmds)) := by
  unfold walkUnparsed
  rw [walk_unparsed fns cmds s s' [] [] hc he]
  by_cases hall : cmds.all (isKnown fns) = true
  · have h1 : cmds.filter (fun c => !isKnown fns c) = [] := by
      rw [List.filter_eq_nil_iff]
      intro a ha
      simp [(List.all_eq_true.1 hall) a ha]
    have h2 : trailing fns cmds = [] := by
      clear h1 hc he
      induction cmds with
      | nil => rfl
      | cons c cs ih => simp only [List.all_cons, Bool.and_eq_true] at hall; simp [trailing, hall.1, ih hall.2]
    simp [hall, h1, h2]
  · simp [hall]

/-- C09, partial (missing: documents where a known command follows an unknown one): if the known commands all
come before the unknown ones, exactly the unknown commands are handed on. -/
theorem C09_passthrough_partial (fns : HandlerMap σ ε) (known unknown : List Expr) (s s' : σ)
    (hu : ∀ c ∈ unknown, isCommand c = true ∧ isKnown fns c = false)
    (he : Executed fns known s s') :
    walkUnparsed fns (known ++ unknown) s = (s', .ok unknown) := by
  have hk : ∀ c ∈ known, isCommand c = true ∧ isKnown fns c = true := by
    clear hu
    induction he with
    | nil => simp
    | cons a b _ _ ih =>
      simp only [List.mem_cons, forall_eq_or_imp]
      exact ⟨⟨a, by simp [isKnown, a, b]⟩, ih⟩
  have f1 : known.filter (isKnown fns) = known := List.filter_eq_self.2 fun c h => (hk c h).2
  have f2 : unknown.filter (isKnown fns) = [] := List.filter_eq_nil_iff.2 fun c h => by simp [(hu c h).2]
  have f3 : known.filter (fun c => !isKnown fns c) = [] :=
    List.filter_eq_nil_iff.2 fun c h => by simp [(hk c h).2]
  have f4 : unknown.filter (fun c => !isKnown fns c) = unknown :=
    List.filter_eq_self.2 fun c h => by simp [(hu c h).2]
  have ht : trailing fns (known ++ unknown) = [] := by
    clear he f1 f2 f3 f4
    induction known with
    | nil =>
      simp only [List.nil_append]
      clear hk
      induction unknown with
      | nil => rfl
      | cons c cs ih =>
        simp only [List.mem_cons, forall_eq_or_imp] at hu
        simp only [trailing, hu.1.2, Bool.false_eq_true, if_false]
        split
        · rename_i h
          cases cs with
          | nil => rfl
          | cons d ds => simp at h; have := (hu.2 d (by simp)).2; simp [h.1] at this
        · exact ih hu.2
    | cons c cs ih =>
      simp only [List.mem_cons, forall_eq_or_imp] at hk
      simp [trailing, hk.1.2, ih hk.2]
  have := C09_passthrough_exact fns (known ++ unknown) s s' (by
    intro c hc
    rcases List.mem_append.1 hc with h | h
    · exact (hk c h).1
    · exact (hu c h).1) (by rw [List.filter_append, f1, f2]; simpa using he)
  rw [this, List.filter_append, f3, f4, ht]
  simp

example : Executed C08_table [cmd "inc" []] 0 1 ∧
    (∀ c ∈ [cmd "x" [], cmd "y" []], isCommand c = true ∧ isKnown C08_table c = false) :=
  ⟨.cons rfl (by simp [Expr.getValue]; rfl) rfl (.nil _), by
    simp [cmd, isCommand, isKnown, Expr.isValue, Expr.getValue, C08_table]⟩

/-- C40: the first error wins and no later step runs; without an error all steps run. -/
theorem C40_first_error_wins (pre post : List (σ → σ × Option ε)) (step : σ → σ × Option ε)
    (s sm s' : σ) (e : ε) (hpre : tryChain pre s = (sm, none)) (hs : step sm = (s', some e)) :
    tryChain (pre ++ step :: post) s = (s', some e) := by
  induction pre generalizing s with
  | nil => simp [tryChain] at hpre; subst hpre; simp [tryChain, hs]
  | cons o os ih =>
    simp only [List.cons_append, tryChain] at hpre ⊢
    cases ho : o s with
    | mk s₁ r =>
      rw [ho] at hpre
      cases r with
      | none => exact ih s₁ hpre
      | some e => simp at hpre

/-- C40: a chain succeeds iff every step succeeds in the context left by the steps before it. -/
theorem C40_success_iff (a b : List (σ → σ × Option ε)) (s s' : σ) :
    tryChain (a ++ b) s = (s', none) ↔ ∃ sm, tryChain a s = (sm, none) ∧ tryChain b sm = (s', none) := by
  induction a generalizing s with
  | nil => simp [tryChain]
  | cons o os ih =>
    simp only [List.cons_append, tryChain]
    cases o s with
    | mk s₁ r => cases r with
      | none => exact ih s₁
      | some e => simp

example : tryChain [fun s => (s + 1, (none : Option Unit)), fun s => (s + 2, none)] 0 = (3, none) ∧
    (fun s => (s + 10, some ())) 3 = (13, some ()) := ⟨rfl, rfl⟩

/-- C44: a document whose settings come first: the settings are executed in order, then the selected module
(the last `class`, or `plot`) runs on exactly the remaining commands. -/
theorem C44_eval_module_partial (settings : HandlerMap σ ε)
    (modules : Str → Option (List Expr → σ → σ × Option ε)) (set cmds : List Expr) (s s' : σ)
    (name : Str) (hset : Executed (evalTable settings) set (s, "plot".toList) (s', name))
    (hu : ∀ c ∈ cmds, isCommand c = true ∧ isKnown (evalTable settings) c = false)
    (m : List Expr → σ → σ × Option ε) (hne : name ≠ []) (hm : modules name = some m) :
    evalExpr settings modules (set ++ cmds) s =
      match m cmds s' with
      | (s'', none) => (s'', .ok ())
      | (s'', some e) => (s'', .error (.module (some e))) := by
  unfold evalExpr
  rw [C09_passthrough_partial _ set cmds _ _ hu hset]
  simp only [hne, hm, if_false]
  rcases m cmds s' with ⟨s'', _ | e⟩ <;> rfl

/-- C44: an unknown module is an error and no module code runs. -/
theorem C44_eval_unknown_module (settings : HandlerMap σ ε)
    (modules : Str → Option (List Expr → σ → σ × Option ε)) (doc : List Expr) (s s' : σ) (name : Str)
    (hc : ∀ c ∈ doc, isCommand c = true)
    (hset : Executed (evalTable settings) (doc.filter (isKnown (evalTable settings)))
      (s, "plot".toList) (s', name)) (hne : name ≠ []) (hm : modules name = none) :
    evalExpr settings modules doc s = (s', .error (.invalidModule name)) := by
  unfold evalExpr
  rw [C09_passthrough_exact _ doc _ _ hc hset]
  simp [hne, hm]

/-- Settings for examples: `dpi` and `size` store a number. -/
def C44_settings : HandlerMap Nat Unit := fun n =>
  if n = "size".toList then some fun args _ => (args.length, none) else none
example : Executed (evalTable C44_settings) [cmd "size" [.literal []], cmd "class" [.literal "draw".toList]]
    (0, "plot".toList) (1, "draw".toList) ∧ isKnown (evalTable C44_settings) (cmd "text" []) = false := by
  constructor
  · refine .cons rfl (by simp [Expr.getValue, evalTable, C44_settings]; rfl) rfl ?_
    exact .cons rfl (by simp [Expr.getValue, evalTable]; rfl) rfl (.nil _)
  · simp [isKnown, cmd, evalTable, Expr.getValue, Expr.isValue]

/-- C44 (violated by the code for settings after the first module command): the document
`text; class draw` is refused by the draw module as containing an invalid command `class`, although
`class draw; text` is fine. -/
theorem C44_eval_order_fails : ∃ (settings : HandlerMap Nat (WalkErr Unit))
    (modules : Str → Option (List Expr → Nat → Nat × Option (WalkErr Unit))),
    (evalExpr settings modules [cmd "class" [.literal "draw".toList], cmd "text" []] 0 = (1, .ok ())) ∧
    (evalExpr settings modules [cmd "text" [], cmd "class" [.literal "draw".toList]] 0 =
      (1, .error (.module (some (.invalidCommand "class".toList))))) := by
  refine ⟨fun _ => none, fun n => if n = "draw".toList then some fun cmds s =>
      match drawEval (fun n => if n = "text".toList then some fun _ s => (s + 1, (none : Option Unit)) else none)
        cmds s with
      | (s', .ok _) => (s', none)
      | (s', .error e) => (s', some e) else none, ?_, ?_⟩
  · simp [evalExpr, walkUnparsed, walkMap, cmd, Expr.isValue, Expr.getValue, evalTable, exprToString,
      exprCloneAll, exprCopyNode, drawEval, walkStrict]
  · simp [evalExpr, walkUnparsed, walkMap, cmd, Expr.isValue, Expr.getValue, evalTable, exprToString,
      exprCloneAll, exprCopyNode, drawEval, walkStrict]

/-- C48 (violated by the code): a command unknown to the plot module, e.g. a misspelled one, is silently
ignored: the plot is evaluated as if the command were not there. -/
theorem C48_plot_unknown_ignored (prepare draw : HandlerMap σ ε) (c : Expr) (hc : isCommand c = true)
    (hp : isKnown prepare c = false) (hd : isKnown draw c = false) (pre post : List Expr) (s : σ) :
    plotEval prepare draw (pre ++ c :: post) s = plotEval prepare draw (pre ++ post) s := by
  unfold plotEval
  rw [walkLax_drop prepare c hc hp]
  cases walkLax prepare (pre ++ post) s with
  | mk s' r =>
    cases r with
    | error e => rfl
    | ok u => exact walkLax_drop draw c hc hd pre post s'

/-- C48, for the draw module the property holds: an unknown command is an error. -/
theorem C48_draw_unknown_partial (fns : HandlerMap σ ε) (name : Expr) (args pre post : List Expr) (s sm : σ)
    (hn : name.isValue = true) (hu : fns name.getValue = none) (hpre : Executed fns pre s sm) :
    drawEval fns (pre ++ .list (name :: args) :: post) s =
      (sm, .error (.invalidCommand name.getValue)) :=
  ((C08_strict_dispatch fns _ s sm).2 _).2 ⟨pre, _, post, sm, rfl, hpre, .unknown hn hu⟩

example : isCommand (cmd "linse" []) = true ∧ isKnown C08_table (cmd "linse" []) = false := by
  simp [cmd, isCommand, isKnown, Expr.isValue, Expr.getValue, C08_table]

/-- C49: a plot succeeds iff first all preparation commands (limits, auto-ranging of every series) are
executed and then all drawing commands, in document order: nothing is drawn before all
data has been taken into account. -/
theorem C49_plot_two_phases (prepare draw : HandlerMap σ ε) (cmds : List Expr) (s s' : σ) :
    plotEval prepare draw cmds s = (s', .ok ()) ↔
      (∀ c ∈ cmds, isCommand c = true) ∧
      ∃ sm, Executed prepare (cmds.filter (isKnown prepare)) s sm ∧
            Executed draw (cmds.filter (isKnown draw)) sm s' := by
  unfold plotEval
  constructor
  · intro h
    cases hw : walkLax prepare cmds s with
    | mk sm r =>
      rw [hw] at h
      cases r with
      | error e => simp at h
      | ok u =>
        have a := (walkLax_ok _ _ _ _).1 hw
        have b := (walkLax_ok _ _ _ _).1 h
        exact ⟨a.1, sm, a.2, b.2⟩
  · rintro ⟨hc, sm, h1, h2⟩
    rw [(walkLax_ok _ _ _ _).2 ⟨hc, h1⟩]
    exact (walkLax_ok _ _ _ _).2 ⟨hc, h2⟩

/-- C49: if preparation fails nothing is drawn. -/
theorem C49_plot_prepare_error (prepare draw : HandlerMap σ ε) (cmds : List Expr) (s s' : σ)
    (e : WalkErr ε) (h : walkLax prepare cmds s = (s', .error e)) :
    plotEval prepare draw cmds s = (s', .error e) := by
  simp [plotEval, h]

example : walkLax C08_table [cmd "inc" [], cmd "fail" []] 0 = (101, .error (.handler ())) := by
  simp [walkLax, walkUnparsed, walkMap, cmd, Expr.isValue, Expr.getValue, C08_table]

end Clip
