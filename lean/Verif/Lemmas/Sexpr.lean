import Verif.Spec.SexprSyntax
set_option linter.unusedSimpArgs false
namespace Clip
open SexprSyntax

/-! Helper lemmas for `Props/Sexpr.lean`. -/

theorem blank_iff (c : Char) : isBlank c = true ↔ c ∈ [' ', '\n', '\t', '\r'] := by
  simp [isBlank, or_assoc]

theorem literalStop_iff (c : Char) : isLiteralStop c = true ↔ c ∈ special := by
  simp [isLiteralStop, isBlank, special, or_assoc]

mutual
theorem exprCopyNode_eq : (e : Expr) → exprCopyNode e = e
  | .list l => by simp [exprCopyNode, exprCloneAll_eq l]
  | .literal _ => rfl
  | .value _ => rfl
theorem exprCloneAll_eq : (l : List Expr) → exprCloneAll l = l
  | [] => rfl
  | e :: es => by simp [exprCloneAll, exprCopyNode_eq e, exprCloneAll_eq es]
end

theorem exprClone_eq (n : Nat) (l : List Expr) : exprClone n l = l.take n := by
  induction n generalizing l with
  | zero => simp [exprClone]
  | succ n ih => cases l <;> simp [exprClone, exprCopyNode_eq, ih]

/-! ## Single token steps -/

theorem skipComment_gap (body rest : Str) (h : '\n' ∉ body) :
    skipComment (body ++ '\n' :: rest) = '\n' :: rest := by
  induction body with
  | nil => simp [skipComment]
  | cons c cs ih =>
    simp only [List.mem_cons, not_or] at h
    have : c ≠ '\n' := fun e => h.1 e.symm
    simp [skipComment, this, ih h.2]

theorem skipComment_end (body : Str) (h : '\n' ∉ body) : skipComment body = [] := by
  induction body with
  | nil => simp [skipComment]
  | cons c cs ih =>
    simp only [List.mem_cons, not_or] at h
    have : c ≠ '\n' := fun e => h.1 e.symm
    simp [skipComment, this, ih h.2]

theorem step_blank {c : Char} {cs : Str} {top rest} (h : c ∈ [' ', '\n', '\t', '\r']) :
    parseStep ⟨c :: cs, top, rest⟩ = .inl ⟨cs, top, rest⟩ := by
  have := (blank_iff c).2 h
  simp [parseStep, this]

theorem reach_gap (g : Gap) (hg : g.ok) (cs : Str) (top rest) :
    Reach parseStep ⟨g.text ++ cs, top, rest⟩ ⟨cs, top, rest⟩ := by
  cases g with
  | blank c => exact Reach.single (step_blank hg)
  | comment body =>
    refine .head (s' := ⟨'\n' :: cs, top, rest⟩) ?_ (Reach.single (step_blank (by simp)))
    have hs : skipComment (';' :: (body ++ '\n' :: cs)) = '\n' :: cs := by
      have := skipComment_gap (';' :: body) cs (by simpa [Gap.ok] using hg)
      simpa using this
    simp [Gap.text, parseStep, isBlank, hs]

theorem reach_gaps (gs : List Gap) (hg : ∀ g ∈ gs, g.ok) (cs : Str) (top rest) :
    Reach parseStep ⟨gs.flatMap Gap.text ++ cs, top, rest⟩ ⟨cs, top, rest⟩ := by
  induction gs with
  | nil => exact .refl _
  | cons g gs ih =>
    simp only [List.mem_cons, forall_eq_or_imp] at hg
    simp only [List.flatMap_cons, List.append_assoc]
    exact (reach_gap g hg.1 _ _ _).trans (ih hg.2)

theorem step_lp (cs top rest) : parseStep ⟨'(' :: cs, top, rest⟩ = .inl ⟨cs, [], top :: rest⟩ := by
  simp [parseStep, isBlank]

theorem step_rp (cs top p ps) :
    parseStep ⟨')' :: cs, top, p :: ps⟩ = .inl ⟨cs, p ++ [.list top], ps⟩ := by
  simp [parseStep, isBlank]

theorem step_rp_err (cs top) : parseStep ⟨')' :: cs, top, []⟩ = .inr (.error .unbalanced) := by
  simp [parseStep, isBlank]

theorem parseLiteral_word (w cs : Str) (hw : ∀ c ∈ w, c ∉ special)
    (hcs : ∀ c ∈ cs.head?, c ∈ special) : parseLiteral (w ++ cs) = (w, cs) := by
  induction w with
  | nil =>
    cases cs with
    | nil => simp [parseLiteral]
    | cons c cs =>
      have : isLiteralStop c = true := (literalStop_iff c).2 (hcs c (by simp))
      simp [parseLiteral, this]
  | cons c w ih =>
    simp only [List.mem_cons, forall_eq_or_imp] at hw
    have : ¬ isLiteralStop c = true := fun h => hw.1 ((literalStop_iff c).1 h)
    simp [parseLiteral, this, ih hw.2]

theorem step_word {w cs : Str} (top rest) (hne : w ≠ []) (hw : ∀ c ∈ w, c ∉ special)
    (hcs : ∀ c ∈ cs.head?, c ∈ special) :
    parseStep ⟨w ++ cs, top, rest⟩ = .inl ⟨cs, top ++ [.literal w], rest⟩ := by
  cases w with
  | nil => exact absurd rfl hne
  | cons c w =>
    have hp := parseLiteral_word (c :: w) cs hw hcs
    have hc := hw c (by simp)
    simp only [special, List.mem_cons, not_or] at hc
    have hb : ¬ isBlank c = true := by
      intro h; rw [blank_iff] at h; simp at h; rcases h with h | h | h | h <;> simp_all
    obtain ⟨_, _, _, _, _, h1, h2, h3, h4, h5, _⟩ := hc
    simp only [List.cons_append] at hp
    simp [parseStep, hb, h1, h2, h3, h4, h5, hp]

theorem parseString_body (q : Char) (body : List QChar) (h : ∀ x ∈ body, x.ok q)
    (hq : q = '\'' ∨ q = '"') (cs : Str) :
    parseStringBody q (body.flatMap QChar.text ++ q :: cs) = .ok (body.map QChar.char, cs) := by
  induction body with
  | nil => rw [parseStringBody.eq_def]; simp
  | cons x body ih =>
    simp only [List.mem_cons, forall_eq_or_imp] at h
    have ih := ih h.2
    cases x with
    | raw c =>
      have hc : c ≠ q ∧ c ≠ '\\' := h.1
      simp only [List.flatMap_cons, QChar.text, List.cons_append, List.nil_append]
      rw [parseStringBody.eq_def]
      simp [QChar.char, hc.1, hc.2, ih]
    | esc c =>
      have hc : c = '\\' ∨ c = '\'' ∨ c = '"' := h.1
      have hq' : ¬ '\\' = q := by rcases hq with rfl | rfl <;> decide
      simp only [List.flatMap_cons, QChar.text, List.cons_append, List.nil_append,
        parseStringBody, hq', if_false, if_true, hc, ih, List.map_cons, QChar.char]

theorem step_quoted {q : Char} {body : List QChar} (hq : q = '\'' ∨ q = '"')
    (h : ∀ x ∈ body, x.ok q) (cs top rest) :
    parseStep ⟨q :: (body.flatMap QChar.text ++ q :: cs), top, rest⟩ =
      .inl ⟨cs, top ++ [.value (body.map QChar.char)], rest⟩ := by
  have hp := parseString_body q body h hq cs
  have hb : ¬ isBlank q = true := by rcases hq with rfl | rfl <;> decide
  have h1 : q ≠ ';' := by rcases hq with rfl | rfl <;> decide
  have h2 : q ≠ '(' := by rcases hq with rfl | rfl <;> decide
  have h3 : q ≠ ')' := by rcases hq with rfl | rfl <;> decide
  simp [parseStep, hb, h1, h2, h3, hq, hp]

/-! ## Token-level machine -/

/-- What one token does to the stack. -/
def tokStep : Tok → List Expr × List (List Expr) → Option (List Expr × List (List Expr))
  | .lp, (top, rest) => some ([], top :: rest)
  | .rp, (_, []) => none
  | .rp, (top, p :: ps) => some (p ++ [.list top], ps)
  | .word s, (top, rest) => some (top ++ [.literal s], rest)
  | .quoted _ body, (top, rest) => some (top ++ [.value (body.map QChar.char)], rest)

def tokRun : List Tok → List Expr × List (List Expr) → Option (List Expr × List (List Expr))
  | [], s => some s
  | t :: ts, s => (tokStep t s).bind (tokRun ts)

theorem tokRun_append (ts us s) : tokRun (ts ++ us) s = (tokRun ts s).bind (tokRun us) := by
  induction ts generalizing s with
  | nil => simp [tokRun]
  | cons t ts ih =>
    simp only [List.cons_append, tokRun]
    cases tokStep t s <;> simp [ih]

theorem head_render {doc : List (List Gap × Tok)} {tail : Str} (hd : DocOk doc)
    (ht : ∀ c ∈ tail.head?, c ∈ special)
    (hw : match doc with | ([], .word _) :: _ => False | _ => True) :
    ∀ c ∈ (render doc tail).head?, c ∈ special := by
  match doc, hd with
  | [], _ => simpa [render] using ht
  | (g :: gs, t) :: ds, hd =>
    have hg := hd.1 g (by simp)
    cases g with
    | blank c =>
      have : c ∈ [' ', '\n', '\t', '\r'] := hg
      simp only [render, List.flatMap_cons, Gap.text, List.cons_append, List.head?_cons,
        Option.mem_def, Option.some.injEq, forall_eq']
      simp only [special]; simp at this ⊢; rcases this with h | h | h | h <;> simp [h]
    | comment b => simp [render, Gap.text, special]
  | ([], .lp) :: ds, _ => simp [render, Tok.text, special]
  | ([], .rp) :: ds, _ => simp [render, Tok.text, special]
  | ([], .quoted q b) :: ds, hd =>
    have : q = '\'' ∨ q = '"' := hd.2.1.1
    simp only [render, Tok.text, List.flatMap_nil, List.nil_append, List.cons_append,
      List.head?_cons, Option.mem_def, Option.some.injEq, forall_eq']
    rcases this with rfl | rfl <;> simp [special]
  | ([], .word w) :: ds, _ => exact absurd hw (by simp)

/-- Rendering a document and running the parser on it does what the tokens do to the stack. -/
theorem reach_doc (doc : List (List Gap × Tok)) (hd : DocOk doc) (tail : Str)
    (ht : ∀ c ∈ tail.head?, c ∈ special) (top rest) :
    (∀ top' rest', tokRun (toks doc) (top, rest) = some (top', rest') →
      Reach parseStep ⟨render doc tail, top, rest⟩ ⟨tail, top', rest'⟩) ∧
    (tokRun (toks doc) (top, rest) = none →
      Returns parseStep ⟨render doc tail, top, rest⟩ (.error .unbalanced)) := by
  induction doc generalizing top rest with
  | nil =>
    simp only [toks, List.map_nil, tokRun, render]
    constructor
    · rintro _ _ h; cases h; exact .refl _
    · intro h; cases h
  | cons d ds ih =>
    obtain ⟨gs, t⟩ := d
    obtain ⟨hg, hto, hadj, hds⟩ := hd
    have hgap := reach_gaps gs hg (t.text ++ render ds tail) top rest
    have key : ∀ top' rest', tokStep t (top, rest) = some (top', rest') →
        parseStep ⟨t.text ++ render ds tail, top, rest⟩ = .inl ⟨render ds tail, top', rest'⟩ := by
      intro top' rest' h
      cases t with
      | lp => simp only [tokStep, Option.some.injEq, Prod.mk.injEq] at h
              obtain ⟨rfl, rfl⟩ := h; exact step_lp _ _ _
      | rp =>
        cases rest with
        | nil => simp [tokStep] at h
        | cons p ps =>
          simp only [tokStep, Option.some.injEq, Prod.mk.injEq] at h
          obtain ⟨rfl, rfl⟩ := h; exact step_rp _ _ _ _
      | word w =>
        simp only [tokStep, Option.some.injEq, Prod.mk.injEq] at h
        obtain ⟨rfl, rfl⟩ := h
        refine step_word _ _ hto.1 hto.2 (head_render hds ht ?_)
        split <;> first | trivial | simp_all
      | quoted q b =>
        simp only [tokStep, Option.some.injEq, Prod.mk.injEq] at h
        obtain ⟨rfl, rfl⟩ := h
        simpa [Tok.text] using step_quoted hto.1 hto.2 (render ds tail) top rest
    have hren : render ((gs, t) :: ds) tail = gs.flatMap Gap.text ++ (t.text ++ render ds tail) := rfl
    rw [hren]
    simp only [toks, List.map_cons, tokRun]
    cases hs : tokStep t (top, rest) with
    | none =>
      refine ⟨by intro _ _ h; simp at h, fun _ => ?_⟩
      refine (hgap.returns_iff).2 (Returns.of_done ?_)
      cases t <;> simp only [tokStep, reduceCtorEq] at hs
      cases rest <;> simp at hs
      exact step_rp_err _ _
    | some p =>
      obtain ⟨top1, rest1⟩ := p
      have hk := key _ _ hs
      have ih := ih hds top1 rest1
      refine ⟨fun t' r' h => ?_, fun h => ?_⟩
      · exact hgap.trans (.head hk (ih.1 t' r' (by simpa [toks] using h)))
      · exact (hgap.returns_iff).2 ((Returns.of_step hk).2 (ih.2 (by simpa [toks] using h)))

/-! ## Balanced token sequences -/

/-- Depth after reading the tokens, `none` if it would become negative. -/
def depthRun : List Tok → Nat → Option Nat
  | [], k => some k
  | .lp :: ts, k => depthRun ts (k + 1)
  | .rp :: _, 0 => none
  | .rp :: ts, k + 1 => depthRun ts k
  | .word _ :: ts, k => depthRun ts k
  | .quoted _ _ :: ts, k => depthRun ts k

theorem tokRun_depth (ts : List Tok) (top rest) :
    (tokRun ts (top, rest)).map (·.2.length) = depthRun ts rest.length := by
  induction ts generalizing top rest with
  | nil => simp [tokRun, depthRun]
  | cons t ts ih =>
    cases t with
    | lp => simpa [tokRun, tokStep, depthRun] using ih [] (top :: rest)
    | rp =>
      cases rest with
      | nil => simp [tokRun, tokStep, depthRun]
      | cons p ps => simpa [tokRun, tokStep, depthRun] using ih (p ++ [.list top]) ps
    | word s => simpa [tokRun, tokStep, depthRun] using ih (top ++ [.literal s]) rest
    | quoted q b => simpa [tokRun, tokStep, depthRun] using ih (top ++ [.value (b.map QChar.char)]) rest

theorem depthRun_some (ts : List Tok) (k : Nat) :
    (∀ d, depthRun ts k = some d → d + ts.countP isRp = k + ts.countP isLp ∧
      ∀ n, (ts.take n).countP isRp ≤ k + (ts.take n).countP isLp) ∧
    (depthRun ts k = none → ∃ n, k + (ts.take n).countP isLp < (ts.take n).countP isRp) := by
  induction ts generalizing k with
  | nil => simp [depthRun]
  | cons t ts ih =>
    cases t with
    | lp =>
      have ih := ih (k + 1)
      refine ⟨fun d h => ?_, fun h => ?_⟩
      · have := ih.1 d (by simpa [depthRun] using h)
        refine ⟨by simp [isLp, isRp, List.countP_cons]; omega, fun n => ?_⟩
        cases n with
        | zero => simp
        | succ n => have := this.2 n; simp [isLp, isRp, List.countP_cons]; omega
      · obtain ⟨n, hn⟩ := ih.2 (by simpa [depthRun] using h)
        exact ⟨n + 1, by simp [isLp, isRp, List.countP_cons]; omega⟩
    | rp =>
      cases k with
      | zero =>
        refine ⟨fun d h => by simp [depthRun] at h, fun _ => ⟨1, by simp [isLp, isRp, List.countP_cons]⟩⟩
      | succ k =>
        have ih := ih k
        refine ⟨fun d h => ?_, fun h => ?_⟩
        · have := ih.1 d (by simpa [depthRun] using h)
          refine ⟨by simp [isLp, isRp, List.countP_cons]; omega, fun n => ?_⟩
          cases n with
          | zero => simp
          | succ n => have := this.2 n; simp [isLp, isRp, List.countP_cons]; omega
        · obtain ⟨n, hn⟩ := ih.2 (by simpa [depthRun] using h)
          exact ⟨n + 1, by simp [isLp, isRp, List.countP_cons]; omega⟩
    | word s =>
      have ih := ih k
      refine ⟨fun d h => ?_, fun h => ?_⟩
      · have := ih.1 d (by simpa [depthRun] using h)
        refine ⟨by simp [isLp, isRp, List.countP_cons]; omega, fun n => ?_⟩
        cases n with
        | zero => simp
        | succ n => have := this.2 n; simp [isLp, isRp, List.countP_cons]; omega
      · obtain ⟨n, hn⟩ := ih.2 (by simpa [depthRun] using h)
        exact ⟨n + 1, by simp [isLp, isRp, List.countP_cons]; omega⟩
    | quoted q b =>
      have ih := ih k
      refine ⟨fun d h => ?_, fun h => ?_⟩
      · have := ih.1 d (by simpa [depthRun] using h)
        refine ⟨by simp [isLp, isRp, List.countP_cons]; omega, fun n => ?_⟩
        cases n with
        | zero => simp
        | succ n => have := this.2 n; simp [isLp, isRp, List.countP_cons]; omega
      · obtain ⟨n, hn⟩ := ih.2 (by simpa [depthRun] using h)
        exact ⟨n + 1, by simp [isLp, isRp, List.countP_cons]; omega⟩

theorem balanced_iff (ts : List Tok) : Balanced ts ↔ depthRun ts 0 = some 0 := by
  have h := depthRun_some ts 0
  constructor
  · rintro ⟨heq, hp⟩
    cases hd : depthRun ts 0 with
    | none => obtain ⟨n, hn⟩ := h.2 hd; have := hp n; omega
    | some d => have := (h.1 d hd).1; simp; omega
  · intro hd
    have := h.1 0 hd
    exact ⟨by omega, fun n => by have := this.2 n; omega⟩

theorem tokRun_denotes {ts : List Tok} {es : List Expr} (h : Denotes ts es) (us top rest) :
    tokRun (ts ++ us) (top, rest) = tokRun us (top ++ es, rest) := by
  induction h generalizing us top rest with
  | nil => simp
  | word _ ih => simp [tokRun, tokStep, ih]
  | quoted _ ih => simp [tokRun, tokStep, ih]
  | list _ _ ih1 ih2 => simp [tokRun, tokStep, ih1, ih2]

/-- `ts` closes the open lists one after the other. -/
inductive DenSt : List Tok → List (List Expr) → Prop
  | base {ts es} : Denotes ts es → DenSt ts [es]
  | cons {ts es ts' ess} : Denotes ts es → DenSt ts' ess → DenSt (ts ++ .rp :: ts') (es :: ess)

theorem denSt_of_depth (ts : List Tok) (k : Nat) (h : depthRun ts k = some 0) :
    ∃ ess, DenSt ts ess ∧ ess.length = k + 1 := by
  induction ts generalizing k with
  | nil => simp [depthRun] at h; subst h; exact ⟨[[]], .base .nil, rfl⟩
  | cons t ts ih =>
    cases t with
    | lp =>
      obtain ⟨ess, hd, hl⟩ := ih (k + 1) (by simpa [depthRun] using h)
      cases hd with
      | base => simp at hl
      | cons h1 h2 =>
        rename_i t1 e1 t2 ess2
        cases h2 with
        | base h2 =>
          exact ⟨_, .base (.list h1 h2), by simpa using hl⟩
        | cons h2 h3 =>
          rename_i t3 e3 t4 ess4
          have := DenSt.cons (Denotes.list h1 h2) h3
          simp only [List.cons_append, List.append_assoc] at this
          exact ⟨_, this, by simpa using hl⟩
    | rp =>
      cases k with
      | zero => simp [depthRun] at h
      | succ k =>
        obtain ⟨ess, hd, hl⟩ := ih k (by simpa [depthRun] using h)
        exact ⟨[] :: ess, .cons .nil hd, by simp [hl]⟩
    | word s =>
      obtain ⟨ess, hd, hl⟩ := ih k (by simpa [depthRun] using h)
      cases hd with
      | base h1 => exact ⟨_, .base (.word (s := s) h1), by simpa using hl⟩
      | cons h1 h2 => exact ⟨_, .cons (.word (s := s) h1) h2, by simpa using hl⟩
    | quoted q b =>
      obtain ⟨ess, hd, hl⟩ := ih k (by simpa [depthRun] using h)
      cases hd with
      | base h1 => exact ⟨_, .base (.quoted (q := q) (body := b) h1), by simpa using hl⟩
      | cons h1 h2 => exact ⟨_, .cons (.quoted (q := q) (body := b) h1) h2, by simpa using hl⟩

theorem balanced_iff_denotes (ts : List Tok) : Balanced ts ↔ ∃ es, Denotes ts es := by
  rw [balanced_iff]
  constructor
  · intro h
    obtain ⟨ess, hd, hl⟩ := denSt_of_depth ts 0 h
    cases hd with
    | base h => exact ⟨_, h⟩
    | cons _ h2 => cases h2 <;> simp at hl
  · rintro ⟨es, h⟩
    have := tokRun_depth ts [] []
    have h2 := tokRun_denotes h [] [] []
    simp [tokRun] at h2
    rw [h2] at this
    simpa using this.symm

/-! ## What may follow the last token -/

theorem gaps_head (gs : List Gap) (hg : ∀ g ∈ gs, g.ok) (cs : Str) (h : ∀ c ∈ cs.head?, c ∈ special) :
    ∀ c ∈ (gs.flatMap Gap.text ++ cs).head?, c ∈ special := by
  cases gs with
  | nil => simpa using h
  | cons g gs =>
    have hg := hg g (by simp)
    cases g with
    | blank c =>
      have : c ∈ [' ', '\n', '\t', '\r'] := hg
      simp only [List.flatMap_cons, Gap.text, List.cons_append, List.head?_cons,
        Option.mem_def, Option.some.injEq, forall_eq']
      simp only [special]; simp at this ⊢; rcases this with h | h | h | h <;> simp [h]
    | comment b => simp [Gap.text, special]

theorem SexprSyntax.EndLayout.head {tail : Str} (h : EndLayout tail) : ∀ c ∈ tail.head?, c ∈ special := by
  obtain ⟨gs, hg, rfl | ⟨b, _, rfl⟩⟩ := h
  · simpa using gaps_head gs hg [] (by simp)
  · exact gaps_head gs hg _ (by simp [special])

theorem SexprSyntax.EndLayout.reach {tail : Str} (h : EndLayout tail) (top rest) :
    Reach parseStep ⟨tail, top, rest⟩ ⟨[], top, rest⟩ := by
  obtain ⟨gs, hg, rfl | ⟨b, hb, rfl⟩⟩ := h
  · simpa using reach_gaps gs hg [] top rest
  · refine (reach_gaps gs hg _ top rest).trans (Reach.single ?_)
    have : skipComment (';' :: b) = [] := skipComment_end _ (by simpa using hb)
    simp [parseStep, isBlank, this]

theorem parse_doc {doc : List (List Gap × Tok)} (hd : DocOk doc) {tail : Str} (ht : EndLayout tail) :
    (∀ es, Denotes (toks doc) es → ExprParse (render doc tail) (.ok es)) ∧
    ((¬ ∃ es, Denotes (toks doc) es) → ExprParse (render doc tail) (.error .unbalanced)) := by
  have hr := reach_doc doc hd tail ht.head [] []
  constructor
  · intro es h
    have h2 := tokRun_denotes h [] [] []
    simp [tokRun] at h2
    have := (hr.1 _ _ h2).trans (ht.reach _ _)
    exact (this.returns_iff).2 (Returns.of_done (by simp [parseStep]))
  · intro h
    rw [← balanced_iff_denotes, balanced_iff] at h
    have hdep := tokRun_depth (toks doc) [] []
    cases hs : tokRun (toks doc) ([], []) with
    | none => exact hr.2 hs
    | some p =>
      obtain ⟨top, rest⟩ := p
      rw [hs] at hdep
      have := (hr.1 _ _ hs).trans (ht.reach _ _)
      refine (this.returns_iff).2 (Returns.of_done ?_)
      cases rest with
      | nil => exact absurd (by simpa using hdep.symm) h
      | cons p ps => simp [parseStep]

/-! ## Decomposition of an arbitrary input -/

/-- A string token that is not well-formed. -/
def BadString (cs : Str) : Prop :=
  ∃ q body e, (q = '\'' ∨ q = '"') ∧ cs = q :: body ∧ parseStringBody q body = .error e

theorem parseStringBody_ok {q : Char} {cs s rest : Str} (h : parseStringBody q cs = .ok (s, rest)) :
    ∃ body : List QChar, (∀ x ∈ body, x.ok q) ∧ cs = body.flatMap QChar.text ++ q :: rest ∧
      s = body.map QChar.char := by
  fun_induction parseStringBody q cs generalizing s rest with
  | case1 => simp at h
  | case2 cs => 
    simp only [Except.ok.injEq, Prod.mk.injEq] at h; obtain ⟨rfl, rfl⟩ := h
    exact ⟨[], by simp, by simp, by simp⟩
  | case3 => simp at h
  | case4 d ds hd s' rest' hr hq ih =>
    simp only [Except.ok.injEq, Prod.mk.injEq] at h; obtain ⟨rfl, rfl⟩ := h
    obtain ⟨b, h1, h2, h3⟩ := ih hr
    exact ⟨.esc d :: b, by simpa [QChar.ok, hd] using h1, by simp [QChar.text, h2],
      by simp [QChar.char, h3]⟩
  | case5 => simp at h
  | case6 => simp at h
  | case7 c cs hq hb s' rest' hr ih =>
    simp only [Except.ok.injEq, Prod.mk.injEq] at h; obtain ⟨rfl, rfl⟩ := h
    obtain ⟨b, h1, h2, h3⟩ := ih hr
    exact ⟨.raw c :: b, by simpa [QChar.ok, hq, hb] using h1, by simp [QChar.text, h2],
      by simp [QChar.char, h3]⟩
  | case8 => simp at h

theorem parseLiteral_spec (cs : Str) : cs = (parseLiteral cs).1 ++ (parseLiteral cs).2 ∧
    (∀ c ∈ (parseLiteral cs).1, c ∉ special) ∧ ∀ c ∈ (parseLiteral cs).2.head?, c ∈ special := by
  induction cs with
  | nil => simp [parseLiteral]
  | cons c cs ih =>
    by_cases h : isLiteralStop c = true
    · simp [parseLiteral, h]; exact (literalStop_iff c).1 h
    · simp only [parseLiteral, h]
      refine ⟨by simpa using ih.1, ?_, by simpa using ih.2.2⟩
      simp only [Bool.false_eq_true, if_false, List.mem_cons, forall_eq_or_imp]
      exact ⟨fun hh => h ((literalStop_iff c).2 hh), ih.2.1⟩

theorem comment_cases (cs : Str) : ('\n' ∉ cs) ∨ ∃ b r, '\n' ∉ b ∧ cs = b ++ '\n' :: r := by
  induction cs with
  | nil => left; simp
  | cons c cs ih =>
    by_cases hc : c = '\n'
    · right; exact ⟨[], cs, by simp, by simp [hc]⟩
    · rcases ih with h | ⟨b, r, h1, h2⟩
      · left; simp [h, Ne.symm hc]
      · right; exact ⟨c :: b, r, by simp [h1, Ne.symm hc], by simp [h2]⟩

/-- Three ways an input can end after its last well-formed token. -/
inductive Ending : Str → Prop
  | done {t} : EndLayout t → Ending t
  | bad {gs : List Gap} {cs} : (∀ g ∈ gs, g.ok) → BadString cs → Ending (gs.flatMap Gap.text ++ cs)
  | backslash {gs : List Gap} {cs} : (∀ g ∈ gs, g.ok) →
      Ending (gs.flatMap Gap.text ++ '\\' :: cs)

theorem Ending.gap {g : Gap} (hg : g.ok) {t} (h : Ending t) : Ending (g.text ++ t) := by
  cases h with
  | done h =>
    obtain ⟨gs, h1, h2⟩ := h
    refine .done ⟨g :: gs, by simpa using ⟨hg, h1⟩, ?_⟩
    rcases h2 with rfl | ⟨b, hb, rfl⟩
    · left; simp
    · right; exact ⟨b, hb, by simp⟩
  | bad h1 h2 =>
    rename_i gs cs
    have := Ending.bad (gs := g :: gs) (cs := cs) (by simpa using ⟨hg, h1⟩) h2
    simpa using this
  | backslash h1 =>
    rename_i gs cs
    have := Ending.backslash (gs := g :: gs) (cs := cs) (by simpa using ⟨hg, h1⟩)
    simpa using this

theorem Ending.head {t : Str} (h : Ending t) : ∀ c ∈ t.head?, c ∈ special := by
  cases h with
  | done h => exact h.head
  | bad h1 h2 =>
    obtain ⟨q, b, e, hq, rfl, _⟩ := h2
    exact gaps_head _ h1 _ (by rcases hq with rfl | rfl <;> simp [special])
  | backslash h1 => exact gaps_head _ h1 _ (by simp [special])

def startsWord : List (List Gap × Tok) → Prop
  | ([], .word _) :: _ => True
  | _ => False

theorem decompose (n : Nat) (cs : Str) (hn : cs.length ≤ n) :
    ∃ doc tail, cs = render doc tail ∧ DocOk doc ∧ Ending tail ∧
      (startsWord doc → ∃ c ∈ cs.head?, c ∉ special) := by
  induction n generalizing cs with
  | zero =>
    have : cs = [] := by simpa using hn
    subst this
    exact ⟨[], [], rfl, trivial, .done ⟨[], by simp, .inl rfl⟩, by simp [startsWord]⟩
  | succ n ih =>
    have addGap : ∀ (g : Gap) (r : Str), g.ok → r.length ≤ n →
        ∃ doc tail, g.text ++ r = render doc tail ∧ DocOk doc ∧ Ending tail ∧ ¬ startsWord doc := by
      intro g r hg hr
      obtain ⟨doc, tail, h1, h2, h3, h4⟩ := ih r hr
      cases doc with
      | nil =>
        simp only [render] at h1; subst h1
        exact ⟨[], g.text ++ r, rfl, trivial, h3.gap hg, by simp [startsWord]⟩
      | cons d ds =>
        obtain ⟨gs, t⟩ := d
        refine ⟨(g :: gs, t) :: ds, tail, by simp [render, h1], ?_, h3, by simp [startsWord]⟩
        exact ⟨by simpa using ⟨hg, h2.1⟩, h2.2.1, h2.2.2.1, h2.2.2.2⟩
    cases cs with
    | nil => exact ⟨[], [], rfl, trivial, .done ⟨[], by simp, .inl rfl⟩, by simp [startsWord]⟩
    | cons c cs =>
      have hlen : cs.length ≤ n := by simpa using hn
      by_cases hb : c ∈ [' ', '\n', '\t', '\r']
      · obtain ⟨doc, tail, h1, h2, h3, h4⟩ := addGap (.blank c) cs hb hlen
        exact ⟨doc, tail, by simpa [Gap.text] using h1, h2, h3, fun h => absurd h h4⟩
      by_cases hsc : c = ';'
      · subst hsc
        rcases comment_cases cs with h | ⟨b, r, hb', rfl⟩
        · exact ⟨[], ';' :: cs, rfl, trivial, .done ⟨[], by simp, .inr ⟨cs, h, by simp⟩⟩,
            by simp [startsWord]⟩
        · obtain ⟨doc, tail, h1, h2, h3, h4⟩ := addGap (.comment b) r hb' (by simp at hlen; omega)
          exact ⟨doc, tail, by simpa [Gap.text] using h1, h2, h3, fun h => absurd h h4⟩
      obtain ⟨doc, tail, h1, h2, h3, h4⟩ := ih cs hlen
      by_cases hl : c = '('
      · subst hl
        exact ⟨([], .lp) :: doc, tail, by simp [render, Tok.text, h1],
          ⟨by simp, trivial, trivial, h2⟩, h3, by simp [startsWord]⟩
      by_cases hr : c = ')'
      · subst hr
        exact ⟨([], .rp) :: doc, tail, by simp [render, Tok.text, h1],
          ⟨by simp, trivial, trivial, h2⟩, h3, by simp [startsWord]⟩
      by_cases hbs : c = '\\'
      · subst hbs
        exact ⟨[], '\\' :: cs, rfl, trivial, .backslash (gs := []) (by simp), by simp [startsWord]⟩
      by_cases hq : c = '\'' ∨ c = '"'
      · cases hp : parseStringBody c cs with
        | error e =>
          exact ⟨[], c :: cs, rfl, trivial, .bad (gs := []) (by simp) ⟨c, cs, e, hq, rfl, hp⟩,
            by simp [startsWord]⟩
        | ok p =>
          obtain ⟨s, rest⟩ := p
          obtain ⟨body, k1, k2, k3⟩ := parseStringBody_ok hp
          have hrl : rest.length ≤ n := by
            have := congrArg List.length k2; simp at this; omega
          obtain ⟨doc, tail, h1, h2, h3, h4⟩ := ih rest hrl
          refine ⟨([], .quoted c body) :: doc, tail, by simp [render, Tok.text, k2, h1],
            ⟨by simp, ⟨hq, k1⟩, trivial, h2⟩, h3, by simp [startsWord]⟩
      · -- literal
        have hcs : c ∉ special := by
          simp only [special, List.mem_cons, not_or] at hb ⊢
          simp only [not_or] at hq
          simp [hb, hsc, hl, hr, hbs, hq]
        have hst : ¬ isLiteralStop c = true := fun h => hcs ((literalStop_iff c).1 h)
        have hpl := parseLiteral_spec cs
        have hrl : (parseLiteral cs).2.length ≤ n := by
          have := congrArg List.length hpl.1; simp at this; omega
        obtain ⟨doc, tail, h1, h2, h3, h4⟩ := ih _ hrl
        refine ⟨([], .word (c :: (parseLiteral cs).1)) :: doc, tail, ?_, ?_, h3, ?_⟩
        · simp only [render, Tok.text, List.flatMap_nil, List.nil_append, List.cons_append, ← h1]
          rw [← hpl.1]
        · refine ⟨by simp, ⟨by simp, ?_⟩, ?_, h2⟩
          · simp only [List.mem_cons, forall_eq_or_imp]; exact ⟨hcs, hpl.2.1⟩
          · split
            · rename_i hd1 hd2
              obtain ⟨x, hx1, hx2⟩ := h4 (by simp [startsWord])
              exact hx2 (hpl.2.2 x hx1)
            · trivial
        · intro _; exact ⟨c, by simp, hcs⟩

theorem backslash_diverges (cs : Str) (top rest) :
    Diverges parseStep ⟨'\\' :: cs, top, rest⟩ := by
  refine Diverges.of_invariant (fun s => ∃ cs, s.cur = '\\' :: cs) ?_ ⟨cs, rfl⟩
  rintro ⟨cur, top, rest⟩ ⟨cs, h⟩
  simp only at h; subst h
  refine ⟨⟨'\\' :: cs, top ++ [.literal []], rest⟩, ?_, cs, rfl⟩
  simp [parseStep, isBlank, parseLiteral, isLiteralStop]

mutual
theorem exprToks_denotes : (e : Expr) → (ts es : _) → Denotes ts es →
    Denotes (exprToks e ++ ts) (e :: es)
  | .literal s, ts, es, h => by simpa [exprToks] using Denotes.word h
  | .value s, ts, es, h => by
    have := Denotes.quoted (q := '"') (body := s.map fun c =>
      if c = '\\' ∨ c = '\'' ∨ c = '"' then QChar.esc c else .raw c) h
    have hm : (s.map fun c => if c = '\\' ∨ c = '\'' ∨ c = '"' then QChar.esc c else .raw c).map
        QChar.char = s := by
      rw [List.map_map]
      conv => rhs; rw [← List.map_id s]
      apply List.map_congr_left
      intro c _
      simp only [Function.comp]
      split <;> rfl
    rw [hm] at this
    simpa [exprToks] using this
  | .list l, ts, es, h => by
    have := Denotes.list (exprsToks_denotes l) h
    simpa [exprToks] using this
theorem exprsToks_denotes : (l : List Expr) → Denotes (exprsToks l) l
  | [] => .nil
  | e :: es => exprToks_denotes e _ _ (exprsToks_denotes es)
end

mutual
theorem exprToks_ok : (e : Expr) → Printable e → ∀ t ∈ exprToks e, t.ok
  | .literal s, h => by simpa [exprToks, Tok.ok, Printable] using h
  | .value s, _ => by
    simp only [exprToks, List.mem_cons, List.not_mem_nil, or_false, forall_eq, Tok.ok]
    refine ⟨by simp, fun x hx => ?_⟩
    simp only [List.mem_map] at hx
    obtain ⟨c, _, rfl⟩ := hx
    by_cases h : c = '\\' ∨ c = '\'' ∨ c = '"'
    · simp only [h, if_true, QChar.ok]
    · simp only [h, if_false, QChar.ok]
      simp only [not_or] at h
      exact ⟨h.2.2, h.1⟩
  | .list l, h => by
    have := exprsToks_ok l (by simpa [Printable] using h)
    simp only [exprToks, List.mem_append, List.mem_cons, List.not_mem_nil, or_false]
    rintro t ((rfl | h) | rfl)
    · trivial
    · exact this t h
    · trivial
theorem exprsToks_ok : (l : List Expr) → Printables l → ∀ t ∈ exprsToks l, t.ok
  | [], _ => by simp [exprsToks]
  | e :: es, h => by
    have h1 := exprToks_ok e h.1
    have h2 := exprsToks_ok es h.2
    simp only [exprsToks, List.mem_append]
    rintro t (h | h)
    · exact h1 t h
    · exact h2 t h
end

theorem docOk_spaced (ts : List Tok) (h : ∀ t ∈ ts, t.ok) :
    DocOk (ts.map fun t => ([Gap.blank ' '], t)) := by
  induction ts with
  | nil => trivial
  | cons t ts ih =>
    refine ⟨by simp [Gap.ok], h t (by simp), ?_, ih fun t ht => h t (by simp [ht])⟩
    cases ts with
    | nil => split <;> simp_all
    | cons u us => split <;> simp_all

end Clip
