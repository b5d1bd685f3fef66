import Verif.Props.Sexpr
/-!
# C76: printing expressions
-/
namespace Clip
open SexprSyntax

mutual
/-- Specification: the expression with all quoted strings turned into bare words. -/
def bareExpr : Expr → Expr
  | .literal s => .literal s
  | .value s => .literal s
  | .list l => .list (bareExprs l)
def bareExprs : List Expr → List Expr
  | [] => []
  | e :: es => bareExpr e :: bareExprs es
end

mutual
/-- Specification: every text in the expression can be written as a bare word. -/
def AllWords : Expr → Prop
  | .literal s => s ≠ [] ∧ ∀ c ∈ s, c ∉ special
  | .value s => s ≠ [] ∧ ∀ c ∈ s, c ∉ special
  | .list l => AllWordss l
def AllWordss : List Expr → Prop
  | [] => True
  | e :: es => AllWords e ∧ AllWordss es
end

mutual
/-- The printed text as a document; `g` precedes the first token. -/
def inspDoc (g : List Gap) : Expr → List (List Gap × Tok)
  | .literal s => [(g, .word s)]
  | .value s => [(g, .word s)]
  | .list l => (g, .lp) :: inspDocs [] l ++ [([], .rp)]
def inspDocs (g : List Gap) : List Expr → List (List Gap × Tok)
  | [] => []
  | e :: es => inspDoc g e ++ inspDocs [.blank ' '] es
end

theorem render_append (a b : List (List Gap × Tok)) (r : Str) : render (a ++ b) r = render a (render b r) := by
  induction a with
  | nil => rfl
  | cons x xs ih => obtain ⟨gs, t⟩ := x; simp [render, ih]

mutual
theorem insp_render (g : List Gap) : (e : Expr) → (r : Str) →
    render (inspDoc g e) r = g.flatMap Gap.text ++ (exprInspect e ++ r)
  | .literal s, r => by simp [inspDoc, render, exprInspect, Tok.text]
  | .value s, r => by simp [inspDoc, render, exprInspect, Tok.text]
  | .list l, r => by
    rw [inspDoc, render_append, render, insps_render]
    cases l with
    | nil => simp [render, exprInspect, Tok.text, exprInspectList]
    | cons e es => simp [render, exprInspect, Tok.text]
theorem insps_render (g : List Gap) : (l : List Expr) → (r : Str) →
    render (inspDocs g l) r = (if l = [] then [] else g.flatMap Gap.text) ++ (exprInspectList l ++ r)
  | [], r => by simp [inspDocs, render, exprInspectList]
  | [e], r => by rw [inspDocs, render_append, insp_render]; simp [inspDocs, render, exprInspectList]
  | e :: e' :: es, r => by
    rw [inspDocs, render_append, insp_render, insps_render]
    simp [exprInspectList, Gap.text]
end

theorem docOk_append {a b : List (List Gap × Tok)} (ha : DocOk a) (hb : DocOk b)
    (h : ∀ s r, b ≠ ([], .word s) :: r) : DocOk (a ++ b) := by
  induction a with
  | nil => exact hb
  | cons x xs ih =>
    obtain ⟨gs, t⟩ := x
    obtain ⟨h1, h2, h3, h4⟩ := ha
    refine ⟨h1, h2, ?_, ih h4⟩
    cases t with
    | word s =>
      cases xs with
      | nil =>
        match b, h with
        | [], _ => trivial
        | ([], .word s) :: r, h => exact absurd rfl (h s r)
        | ([], .lp) :: r, _ => trivial
        | ([], .rp) :: r, _ => trivial
        | ([], .quoted _ _) :: r, _ => trivial
        | (_ :: _, _) :: r, _ => trivial
      | cons y ys =>
        obtain ⟨gy, ty⟩ := y
        cases gy <;> cases ty <;> first | trivial | exact h3
    | lp => trivial
    | rp => trivial
    | quoted _ _ => trivial

theorem insp_first (g : List Gap) (hg : g ≠ []) (e : Expr) (r : List (List Gap × Tok)) (s : Str) (q : List (List Gap × Tok)) :
    inspDoc g e ++ r ≠ ([], .word s) :: q := by
  cases e <;> simp [inspDoc, hg]

mutual
theorem insp_ok (g : List Gap) (hg : ∀ x ∈ g, x.ok) : (e : Expr) → AllWords e → DocOk (inspDoc g e)
  | .literal s, h => ⟨hg, h, trivial, trivial⟩
  | .value s, h => ⟨hg, h, trivial, trivial⟩
  | .list l, h => by
    rw [inspDoc]
    have h1 := insps_ok [] (by simp) l h
    have h2 : DocOk (inspDocs [] l ++ [([], .rp)]) :=
      docOk_append h1 ⟨by simp, trivial, trivial, trivial⟩ (by intro s r hh; injection hh with hh _; injection hh with _ hh; cases hh)
    exact ⟨hg, trivial, by trivial, h2⟩
theorem insps_ok (g : List Gap) (hg : ∀ x ∈ g, x.ok) : (l : List Expr) → AllWordss l → DocOk (inspDocs g l)
  | [], _ => trivial
  | e :: es, h => by
    rw [inspDocs]
    apply docOk_append (insp_ok g hg e h.1) (insps_ok _ (by simp [Gap.ok]) es h.2)
    intro s r
    cases es with
    | nil => simp [inspDocs]
    | cons e' es => rw [inspDocs]; exact insp_first _ (by simp) _ _ _ _
end

theorem toks_append (a b : List (List Gap × Tok)) : toks (a ++ b) = toks a ++ toks b := by simp [toks]

mutual
theorem insp_denotes (g : List Gap) : (e : Expr) → ∀ ts es, Denotes ts es →
    Denotes (toks (inspDoc g e) ++ ts) (bareExpr e :: es)
  | .literal s, ts, es, h => by simpa [inspDoc, toks, bareExpr] using Denotes.word h
  | .value s, ts, es, h => by simpa [inspDoc, toks, bareExpr] using Denotes.word h
  | .list l, ts, es, h => by
    have := Denotes.list (insps_denotes [] l) h
    rw [inspDoc, toks_append]
    simpa [toks, bareExpr] using this
theorem insps_denotes (g : List Gap) : (l : List Expr) → Denotes (toks (inspDocs g l)) (bareExprs l)
  | [] => .nil
  | e :: es => by
    rw [inspDocs, toks_append, bareExprs]
    exact insp_denotes g e _ _ (insps_denotes _ es)
end

/-- C76: the text printed for expressions (used in messages) reads back as the same expressions, if all texts in them can
be written as bare words; only the distinction between words and quoted strings is lost. -/
theorem C76_inspect_partial (es : List Expr) (h : AllWordss es) : ExprParse (exprInspectList es) (.ok (bareExprs es)) := by
  have hd := insps_ok [] (by simp) es h
  have := (parse_doc hd (tail := []) ⟨[], by simp, .inl rfl⟩).1 _ (insps_denotes [] es)
  rw [insps_render] at this
  simpa using this

/-- C76, violated by the code: quotes are not printed, so a string with a blank reads back as two words. -/
theorem C76_inspect_strings : ExprParse (exprInspect (.value "a b".toList)) (.ok [.literal "a".toList, .literal "b".toList]) :=
  C76_inspect_partial [.literal "a".toList, .literal "b".toList] (by simp [AllWordss, AllWords, special])

example : AllWordss [.list [.literal "a".toList, .value "x".toList, .list []], .literal "b".toList] := by
  simp [AllWordss, AllWords, special]

end Clip
