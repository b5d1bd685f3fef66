import Verif.Lemmas.Plist
/-! Property theorems C06, C07, C46, C47 (property list text). -/
namespace Clip
open PlistSyntax

/-- C06: writing any document in property list syntax and parsing the text gives the expression the
document stands for. -/
theorem C06_plist_roundtrip (ps : List PProp) (h : PProp.oks ps) (fuel : Nat)
    (hf : (PProp.texts ps).length + 2 ≤ fuel) :
    plistParse fuel (PProp.texts ps) = some (some (PProp.exprs ps)) := by
  have ht := pprops_text ps h [] [] .nil
  simp only [List.append_nil] at ht
  have hl := plistTokens_length (PProp.texts ps)
  rw [plistTokens_text ht] at hl
  unfold plistParse
  rw [plistTokens_text ht]
  exact pp_lax (pprops_doc ps).lax (by omega)

/-- A document with nesting, both kinds of strings and a call. -/
def C06_doc : List PProp :=
  [.block "lines".toList [.prop "data-x".toList [.call "csv".toList [.quoted "a\"b.csv".toList, .word "x".toList]],
    .prop "limit".toList [.word "0".toList, .word ['1']]], .prop "size".toList []]
example : PProp.oks C06_doc := by
  simp [C06_doc, PProp.oks, PProp.ok, PVal.oks, PVal.ok, Plain, PlistSyntax.special]

/-- C06: the same for every way of writing a document: names quoted or not, either quote character,
any escaping, optional commas, any blanks between tokens. -/
theorem C06_plist_accepts (ts : List PTok) (es : List Expr) (text : Str) (hd : Doc ts es)
    (ht : Text ts text) (fuel : Nat) (hf : text.length + 2 ≤ fuel) :
    plistParse fuel text = some (some es) := by
  have hl := plistTokens_length text
  unfold plistParse
  rw [plistTokens_text ht] at hl ⊢
  exact pp_lax hd.lax (by omega)

example : Doc [.str ['a'], .colon, .str ['b'], .semicolon]
      [.list [.literal ['a'], .literal ['b']]] ∧
    Text [.str ['a'], .colon, .str ['b'], .semicolon] ['a', ' ', ':', '\t', 'b', ';'] := by
  refine ⟨.prop (ts := [.str ['b']]) .str (.word .nil) .nil, ?_⟩
  refine .tok (w := ['a']) (.str (by simp) (by simp [PlistSyntax.special])) ?_ (by simp [PlistSyntax.special])
  refine .blank (by simp) (.tok (w := [':']) .colon (.blank (by simp) ?_) (by simp [PlistSyntax.special]))
  refine .tok (w := ['b']) (.str (by simp) (by simp [PlistSyntax.special])) ?_ (by simp [PlistSyntax.special])
  exact .tok (w := [';']) .semicolon .nil (by simp)

/-- C07: on every input the parser returns; recursion depth plus loop iterations are bounded by the
length of the input plus two. -/
theorem C07_plist_terminates (input : Str) (fuel : Nat) (hf : input.length + 2 ≤ fuel) :
    ∃ r, plistParse fuel input = some r :=
  pp_total _ _ (by have := plistTokens_length input; omega)

example : ("a: b(1".toList).length + 2 ≤ 8 := by decide

/-- C46 (violated by the code): a document with an unclosed parenthesis is accepted. -/
theorem C46_plist_unclosed_paren_accepted :
    plistParse 20 ['a', ':', ' ', 'b', '(', '1', ';'] =
      some (some [.list [.literal ['a'], .list [.literal ['b'], .literal ['1']]]]) ∧
    ¬ ∃ es, Doc (plistTokens ['a', ':', ' ', 'b', '(', '1', ';']) es := by
  have ht : plistTokens ['a', ':', ' ', 'b', '(', '1', ';'] =
      [.str ['a'], .colon, .str ['b'], .lparen, .str ['1'], .semicolon] := by
    refine plistTokens_text (text := ['a', ':', ' ', 'b', '(', '1', ';']) ?_
    refine .tok (w := ['a']) (.str (by simp) (by simp [PlistSyntax.special])) ?_ (by simp [PlistSyntax.special])
    refine .tok (w := [':']) .colon (.blank (by simp) ?_) (by simp [PlistSyntax.special])
    refine .tok (w := ['b']) (.str (by simp) (by simp [PlistSyntax.special])) ?_ (by simp [PlistSyntax.special])
    refine .tok (w := ['(']) .lparen ?_ (by simp [isWord])
    refine .tok (w := ['1']) (.str (by simp) (by simp [PlistSyntax.special])) ?_ (by simp [PlistSyntax.special])
    exact .tok (w := [';']) .semicolon .nil (by simp)
  refine ⟨by unfold plistParse; rw [ht]; rfl, ?_⟩
  rw [ht]
  rintro ⟨es, h⟩
  have hc : ∀ {ts : List PTok} {es}, Values ts es → ts.count .lparen = ts.count .rparen := by
    intro ts es h
    induction h with
    | nil => rfl
    | comma _ ih => simpa [List.count_cons] using ih
    | quoted _ ih => simpa [List.count_cons] using ih
    | word _ ih => simpa [List.count_cons] using ih
    | call _ _ ih1 ih2 => simp [List.count_cons, List.count_append]; omega
  have hd : ∀ {ts : List PTok} {es}, Doc ts es → ts.count .lparen = ts.count .rparen := by
    intro ts es h
    induction h with
    | nil => rfl
    | prop hn hv _ ih => cases hn <;> (have := hc hv; simp [List.count_cons, List.count_append]; omega)
    | block hn _ _ ih1 ih2 => cases hn <;> (simp [List.count_cons, List.count_append]; omega)
  have := hd h
  revert this
  decide

/-- C46, exact acceptance: a text is accepted with result `es` iff its tokens form a document in
which the only possible defect is that closing parentheses are missing in front of a `;`.  Everything
else is refused. -/
theorem C46_plist_accepts_iff_partial (input : Str) (es : List Expr) (fuel : Nat)
    (hf : input.length + 2 ≤ fuel) :
    (plistParse fuel input = some (some es) ↔ LaxDoc (plistTokens input) es) ∧
    (plistParse fuel input = some none ↔ ¬ ∃ es, LaxDoc (plistTokens input) es) := by
  have hl := plistTokens_length input
  have h1 : ∀ es, plistParse fuel input = some (some es) ↔ LaxDoc (plistTokens input) es :=
    fun es => ⟨pp_sound _ _ _, fun h => pp_lax h (by omega)⟩
  refine ⟨h1 es, ?_⟩
  obtain ⟨r, hr⟩ := C07_plist_terminates input fuel hf
  constructor
  · rintro h ⟨es, he⟩
    rw [(h1 es).2 he] at h
    simp at h
  · intro h
    cases r with
    | none => exact hr
    | some es => exact absurd ⟨es, (h1 es).1 hr⟩ h

/-- C47: a document that ends inside a quoted string is refused. -/
theorem C47_plist_unterminated_string (ts : List PTok) (text : Str) (ht : Text ts text) (q : Char)
    (hq : q = '"' ∨ q = '\'') (body : List QC) (hb : ∀ x ∈ body, x.ok q) (tail : Str)
    (htail : tail = [] ∨ tail = ['\\']) (fuel : Nat)
    (hf : (text ++ q :: (body.flatMap QC.text ++ tail)).length + 2 ≤ fuel) :
    plistParse fuel (text ++ q :: (body.flatMap QC.text ++ tail)) = some none := by
  rw [(C46_plist_accepts_iff_partial _ [] fuel hf).2]
  rintro ⟨es, h⟩
  rw [plistTokens_append ht _ (by rcases hq with rfl | rfl <;> simp [PlistSyntax.special])] at h
  have hp := plistQuoted_open q body hb tail htail hq
  have : plistTokens (q :: (body.flatMap QC.text ++ tail)) = [.quoted (body.map QC.char)] := by
    rw [plistTokens]
    rcases hq with rfl | rfl <;> simp [isBlank, hp, plistTokens]
  rw [this] at h
  have := h.last (.quoted (body.map QC.char)) (by simp)
  simp at this

example : Text [.str ['a'], .colon] ['a', ':'] ∧ (∀ x ∈ [QC.raw ';', .esc '"'], x.ok '"') := by
  refine ⟨?_, by simp [QC.ok]⟩
  refine .tok (w := ['a']) (.str (by simp) (by simp [PlistSyntax.special])) ?_ (by simp [PlistSyntax.special])
  exact .tok (w := [':']) .colon .nil (by simp [PlistSyntax.special])

end Clip
