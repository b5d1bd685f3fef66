import Verif.Lemmas.Sexpr
/-! Property theorems C01–C05 (s-expression text). -/
namespace Clip
open SexprSyntax

/-- C01: writing any expression chain and parsing the text returns the chain. -/
theorem C01_sexpr_roundtrip (es : List Expr) (h : Printables es) :
    ExprParse (printExprs es) (.ok es) := by
  have hd := docOk_spaced (exprsToks es) (exprsToks_ok es h)
  have := (parse_doc hd (tail := []) ⟨[], by simp, .inl rfl⟩).1 es
  have ht : toks ((exprsToks es).map fun t => ([Gap.blank ' '], t)) = exprsToks es := by
    simp [toks, Function.comp_def]
  rw [ht] at this
  exact this (exprsToks_denotes es)

example : Printables [.list [.literal "a".toList, .value "x\"y\\ (;".toList, .list []], .literal "b".toList] := by
  simp [Printables, Printable, special]

/-- C02: a lexically valid document is accepted exactly when its parentheses are balanced, with the
expression it denotes; otherwise the result is the error "unbalanced parens". -/
theorem C02_sexpr_balanced (doc : List (List Gap × Tok)) (hd : DocOk doc) (tail : Str)
    (ht : EndLayout tail) :
    (Balanced (toks doc) ↔ ∃ es, ExprParse (render doc tail) (.ok es)) ∧
    (¬ Balanced (toks doc) ↔ ExprParse (render doc tail) (.error .unbalanced)) ∧
    (∀ es, ExprParse (render doc tail) (.ok es) ↔ Denotes (toks doc) es) := by
  have hp := parse_doc hd ht
  rw [balanced_iff_denotes]
  by_cases h : ∃ es, Denotes (toks doc) es
  · obtain ⟨es, he⟩ := h
    have hr := hp.1 es he
    refine ⟨⟨fun _ => ⟨es, hr⟩, fun _ => ⟨es, he⟩⟩, ⟨fun hn => absurd ⟨es, he⟩ hn, fun hn => ?_⟩, ?_⟩
    · cases Returns.unique hr hn
    · refine fun es' => ⟨fun h' => ?_, hp.1 es'⟩
      cases Returns.unique hr h'
      exact he
  · have hr := hp.2 h
    refine ⟨⟨fun h' => absurd h' h, fun ⟨es, h'⟩ => ?_⟩, ⟨fun _ => hr, fun _ => h⟩, ?_⟩
    · cases Returns.unique hr h'
    · refine fun es' => ⟨fun h' => ?_, hp.1 es'⟩
      cases Returns.unique hr h'

/-- A document with comments, nesting and both quote styles. -/
def C02_doc : List (List Gap × Tok) :=
  [([.comment "hi".toList], .lp), ([], .word "a".toList), ([], .quoted '\'' [.raw '"', .esc '\'']),
   ([.blank '\t'], .rp)]
example : DocOk C02_doc ∧ EndLayout "; end".toList ∧ Balanced (toks C02_doc) := by
  refine ⟨?_, ⟨[], by simp, .inr ⟨" end".toList, by decide, by simp⟩⟩, ?_⟩
  · simp [DocOk, C02_doc, Gap.ok, Tok.ok, special, QChar.ok]
  · rw [balanced_iff]; rfl
example : ¬ Balanced (toks (C02_doc ++ [([], .rp)])) := by
  rw [balanced_iff]; simp [C02_doc, toks, depthRun]

/-- C03: two documents with the same tokens give the same result, however they are laid out. -/
theorem C03_sexpr_layout_irrelevant (d₁ d₂ : List (List Gap × Tok)) (h₁ : DocOk d₁) (h₂ : DocOk d₂)
    (t₁ t₂ : Str) (ht₁ : EndLayout t₁) (ht₂ : EndLayout t₂) (h : toks d₁ = toks d₂)
    (r : Except ParseErr (List Expr)) :
    ExprParse (render d₁ t₁) r ↔ ExprParse (render d₂ t₂) r := by
  have p1 := parse_doc h₁ ht₁
  have p2 := parse_doc h₂ ht₂
  rw [h] at p1
  by_cases hd : ∃ es, Denotes (toks d₂) es
  · obtain ⟨es, he⟩ := hd
    have a := p1.1 es he
    have b := p2.1 es he
    exact ⟨fun x => (Returns.unique a x) ▸ b, fun x => (Returns.unique b x) ▸ a⟩
  · have a := p1.2 hd
    have b := p2.2 hd
    exact ⟨fun x => (Returns.unique a x) ▸ b, fun x => (Returns.unique b x) ▸ a⟩

example : DocOk [([], Tok.lp), ([.blank ' '], .rp)] ∧ DocOk [([.comment []], Tok.lp), ([], .rp)] ∧
    EndLayout " ".toList := by
  refine ⟨by simp [DocOk, Gap.ok, Tok.ok], by simp [DocOk, Gap.ok, Tok.ok],
    [.blank ' '], by simp [Gap.ok], .inl (by simp [Gap.text])⟩

/-- C04 (violated by the code): a document with a backslash outside a string makes the parser run
forever; so termination for every input is false. -/
theorem C04_sexpr_termination_fails : ExprParseDiverges "(a \\b)".toList ∧
    ¬ ∀ input, ∃ r, ExprParse input r := by
  have h : ExprParseDiverges "(a \\b)".toList := by
    have h1 : Reach parseStep (parseInit "(a \\b)".toList)
        ⟨"\\b)".toList, [.literal "a".toList], [[]]⟩ := by
      refine .head (s' := ⟨"a \\b)".toList, [], [[]]⟩) rfl ?_
      refine .head (s' := ⟨" \\b)".toList, [.literal "a".toList], [[]]⟩) rfl ?_
      exact .head (s' := ⟨"\\b)".toList, [.literal "a".toList], [[]]⟩) rfl (.refl _)
    exact (h1.diverges_iff).2 (backslash_diverges _ _ _)
  exact ⟨h, fun hall => by obtain ⟨r, hr⟩ := hall "(a \\b)".toList; exact h.not_returns hr⟩

/-- C04, exact characterisation: the parser fails to terminate precisely on the inputs that consist of
well-formed tokens, never closing more lists than were opened, followed by a backslash outside a
string. -/
theorem C04_sexpr_diverges_iff (input : Str) :
    ExprParseDiverges input ↔
      ∃ (doc : List (List Gap × Tok)) (gs : List Gap) (rest : Str), DocOk doc ∧ (∀ g ∈ gs, g.ok) ∧
        input = render doc (gs.flatMap Gap.text ++ '\\' :: rest) ∧
        ∀ n, ((toks doc).take n).countP isRp ≤ ((toks doc).take n).countP isLp := by
  constructor
  · intro hdiv
    obtain ⟨doc, tail, rfl, hd, he, -⟩ := decompose _ input (Nat.le_refl _)
    have hr := reach_doc doc hd tail he.head [] []
    cases hs : tokRun (toks doc) ([], []) with
    | none => exact absurd (hr.2 hs) hdiv.not_returns
    | some p =>
      obtain ⟨top, rest⟩ := p
      have hreach := hr.1 _ _ hs
      cases he with
      | done h =>
        have hreach := hreach.trans (h.reach _ _)
        have : ∃ r, Returns parseStep ⟨[], top, rest⟩ r := by
          cases rest with
          | nil => exact ⟨_, Returns.of_done (by simp [parseStep]; rfl)⟩
          | cons => exact ⟨_, Returns.of_done (by simp [parseStep]; rfl)⟩
        obtain ⟨r, h⟩ := this
        exact absurd ((hreach.returns_iff).2 h) hdiv.not_returns
      | bad hg hb =>
        obtain ⟨q, b, e, hq, rfl, hb⟩ := hb
        have hreach := hreach.trans (reach_gaps _ hg _ _ _)
        have : Returns parseStep ⟨q :: b, top, rest⟩ (.error e) := by
          apply Returns.of_done
          have hb' : ¬ isBlank q = true := by rcases hq with rfl | rfl <;> decide
          have h1 : q ≠ ';' := by rcases hq with rfl | rfl <;> decide
          have h2 : q ≠ '(' := by rcases hq with rfl | rfl <;> decide
          have h3 : q ≠ ')' := by rcases hq with rfl | rfl <;> decide
          simp [parseStep, hb', h1, h2, h3, hq, hb]
        exact absurd ((hreach.returns_iff).2 this) hdiv.not_returns
      | backslash hg =>
        rename_i gs cs
        refine ⟨doc, gs, cs, hd, hg, rfl, ?_⟩
        have hdep := tokRun_depth (toks doc) [] []
        rw [hs] at hdep
        have := ((depthRun_some (toks doc) 0).1 _ hdep.symm).2
        simpa using this
  · rintro ⟨doc, gs, rest, hd, hg, rfl, hp⟩
    have hr := reach_doc doc hd (gs.flatMap Gap.text ++ '\\' :: rest)
      (gaps_head gs hg _ (by simp [special])) [] []
    have hdep := tokRun_depth (toks doc) [] []
    cases hs : tokRun (toks doc) ([], []) with
    | none =>
      rw [hs] at hdep
      obtain ⟨n, hn⟩ := (depthRun_some (toks doc) 0).2 hdep.symm
      have := hp n; omega
    | some p =>
      have h := (hr.1 _ _ hs).trans (reach_gaps gs hg _ _ _)
      exact (h.diverges_iff).2 (backslash_diverges _ _ _)

/-- C04, partial (missing: inputs with a backslash outside of a string): an input without any
backslash is always parsed or refused after finitely many steps. -/
theorem C04_sexpr_terminates_partial (input : Str) (h : '\\' ∉ input) :
    ∃ r, ExprParse input r := by
  by_cases hd : ExprParseDiverges input
  · obtain ⟨doc, gs, rest, _, _, rfl, _⟩ := (C04_sexpr_diverges_iff input).1 hd
    exfalso
    have : ∀ (doc : List (List Gap × Tok)) (t : Str), '\\' ∈ t → '\\' ∈ render doc t := by
      intro doc t ht
      induction doc with
      | nil => exact ht
      | cons d ds ih => simp [render, ih]
    exact h (this _ _ (by simp))
  · unfold ExprParseDiverges at hd
    rw [diverges_iff] at hd
    exact Classical.not_forall_not.1 hd

example : '\\' ∉ "(foo 'bar' ; baz".toList := by decide

/-- C05: a clone equals the original; with a count it is the prefix of that length. -/
theorem C05_clone (l : List Expr) (n : Nat) :
    exprCloneAll l = l ∧ exprClone n l = l.take n :=
  ⟨exprCloneAll_eq l, exprClone_eq n l⟩

example : exprClone 1 [.list [.value "a".toList], .literal "b".toList] = [.list [.value "a".toList]] := rfl

end Clip
