import Verif.Props.Eval
/-!
# C77: walking a parameter list
-/
namespace Clip

/-- Specification: run a list of parameters (name, arguments) in order, up to the first failure or, in strict mode,
the first unknown name. -/
def runParams {σ ε : Type} (fns : Str → Option (List Expr → σ → σ × Option ε)) (strict : Bool) :
    List (Str × List Expr) → σ → σ × Option (Str ⊕ ε)
  | [], s => (s, none)
  | (n, args) :: ps, s =>
    match fns n with
    | none => if strict then (s, some (.inl n)) else runParams fns strict ps s
    | some f =>
      match f args s with
      | (s', none) => runParams fns strict ps s'
      | (s', some e) => (s', some (.inr e))

/-- Specification: the parameter `(name args...)` as written. -/
def paramExpr (p : Str × List Expr) : Expr := .list (.literal p.1 :: p.2)

def paramRes {σ ε : Type} : σ × Option (Str ⊕ ε) → σ × Except (WalkErr ε) Unit
  | (s, none) => (s, .ok ())
  | (s, some (.inl n)) => (s, .error (.invalidCommand n))
  | (s, some (.inr e)) => (s, .error (.handler e))

/-- C77: parameters that all have arguments are applied in order up to the first failure; in strict mode an unknown
one is refused by name, otherwise it is passed over. -/
theorem C77_params_partial {σ ε : Type} (fns : HandlerMap σ ε) (strict : Bool) (ps : List (Str × List Expr))
    (h : ∀ p ∈ ps, p.2 ≠ []) (s : σ) :
    walkTmap fns strict (ps.map paramExpr) s = paramRes (runParams fns strict ps s) := by
  induction ps generalizing s with
  | nil => rfl
  | cons p ps ih =>
    obtain ⟨n, args⟩ := p
    have ha : args.isEmpty = false := by simpa using h (n, args) (by simp)
    have ih := ih (fun p hp => h p (by simp [hp]))
    simp only [List.map_cons, paramExpr, walkTmap, runParams, Expr.isValue, Expr.getValue, if_true, ha]
    cases fns n with
    | none => cases strict <;> simp [ih, paramRes]
    | some f =>
      simp only []
      rcases f args s with ⟨s', _ | e⟩ <;> simp [ih, paramRes]

/-- C77 (violated by the code): a parameter without arguments ends the walk, and what comes after it is silently
ignored, even in strict mode. -/
theorem C77_stops_at_bare {σ ε : Type} (fns : HandlerMap σ ε) (strict : Bool) (n : Str)
    (f : List Expr → σ → σ × Option ε) (hf : fns n = some f) (s s' : σ) (hr : f [] s = (s', none)) (rest : List Expr) :
    walkTmap fns strict (paramExpr (n, []) :: rest) s = (s', .ok ()) := by
  simp [walkTmap, paramExpr, Expr.isValue, Expr.getValue, hf, hr]

/-- C77: an entry that is not a list, or a list that does not start with a word, is refused. -/
theorem C77_malformed {σ ε : Type} (fns : HandlerMap σ ε) (strict : Bool) (e : Expr) (rest : List Expr) (s : σ)
    (h : ∀ hd args, hd.isValue = true → e ≠ .list (hd :: args)) :
    ∃ err, walkTmap fns strict (e :: rest) s = (s, .error err) := by
  cases e with
  | literal x => exact ⟨_, rfl⟩
  | value x => exact ⟨_, rfl⟩
  | list l =>
    cases l with
    | nil => exact ⟨_, rfl⟩
    | cons hd args =>
      by_cases hv : hd.isValue = true
      · exact absurd rfl (h hd args hv)
      · exact ⟨.notLiteral, by simp [walkTmap, hv]⟩

/-- Non-vacuity: two known parameters and an unknown one. -/
example : walkTmap (ε := Unit) (fun n => if n = ['a'] then some (fun args (s : Nat) => (s + args.length, none)) else none) true
    ([(['a'], [.literal ['1']]), (['a'], [.literal ['1'], .literal ['2']]), (['b'], [.list []])].map paramExpr) 0
    = (3, .error (.invalidCommand ['b'])) := by
  rw [C77_params_partial _ _ _ (by simp)]; rfl

end Clip
