import Verif.Spec.Writing
import Verif.Props.WholeDocument
set_option linter.unusedSimpArgs false
/-!
# C115: ways to write the same document

Blanks, line breaks, the kind of quotes, escapes, commas between values and quotes around names make no difference.
-/
namespace Clip.Spelling
open PlistSyntax

theorem tokens_unique {ts ts' : List PTok} {src : Str} (h : Text ts src) (h' : Text ts' src) : ts = ts' :=
  (plistTokens_text h).symm.trans (plistTokens_text h')

theorem parse_text {ts : List PTok} {src : Str} (h : Text ts src) (es : List Expr) :
    plistParse (src.length + 2) src = some (some es) ↔ LaxDoc ts es := by
  rw [(C46_plist_accepts_iff_partial src es _ (le_refl _)).1, plistTokens_text h]

theorem document_unique {ts ts' : List PTok} {src : Str} {es es' : List Expr} (h : Text ts src) (h' : Text ts' src)
    (hd : LaxDoc ts es) (hd' : LaxDoc ts' es') : es' = es := by
  have h1 := (parse_text h es).2 hd
  rw [(parse_text h' es').2 hd'] at h1
  cases h1; rfl

/-- The tokens without commas, and without quotes around names. -/
def norm : List PTok → List PTok
  | [] => []
  | .comma :: ts => norm ts
  | .quoted s :: ts => (if beforeColon ts then .str s else .quoted s) :: norm ts
  | t :: ts => t :: norm ts

theorem before_same {ts us : List PTok} (h : SameWriting ts us) : beforeColon us = beforeColon ts := by
  induction h with
  | nil => rfl
  | comma _ ih => exact ih
  | comma' _ ih => exact ih
  | @tok t ts us hc _ ih => cases t <;> first | rfl | exact absurd rfl hc
  | @name t u ts us hs hb _ ih =>
    cases hs with
    | same => cases t <;> first | rfl | exact ih
    | quote => rfl
    | unquote => rfl

theorem norm_same {ts us : List PTok} (h : SameWriting ts us) : norm ts = norm us := by
  induction h with
  | nil => rfl
  | comma _ ih => exact ih
  | comma' _ ih => exact ih
  | @tok t ts us hc hr ih =>
    have := before_same hr
    cases t with
    | comma => exact absurd rfl hc
    | _ => simp [norm, ih, this]
  | @name t u ts us hs hb hr ih =>
    have := before_same hr
    cases hs with
    | same => cases t <;> simp [norm, ih, this]
    | quote => simp [norm, ih, this, hb]
    | unquote => simp [norm, ih, this, hb]

theorem norm_append {r : List PTok} (hr : beforeColon r = false) : ∀ ts : List PTok, norm (ts ++ r) = norm ts ++ norm r
  | [] => rfl
  | t :: ts => by
    have ih := norm_append hr ts
    have hb : beforeColon (ts ++ r) = beforeColon ts := by
      clear ih
      induction ts with
      | nil => exact hr
      | cons x xs ih => cases x <;> first | rfl | exact ih
    cases t <;> simp [norm, ih, hb]

theorem norm_values {ts es} (h : Values ts es) : Values (norm ts) es ∧ beforeColon ts = false := by
  induction h with
  | nil => exact ⟨.nil, rfl⟩
  | comma _ ih => exact ih
  | quoted _ ih => exact ⟨by rw [norm, ih.2]; exact .quoted ih.1, rfl⟩
  | word _ ih => exact ⟨.word ih.1, rfl⟩
  | @call s ts es us fs _ _ ih1 ih2 =>
    refine ⟨?_, rfl⟩
    show Values (.str s :: .lparen :: norm (ts ++ .rparen :: us)) _
    rw [norm_append rfl]
    exact .call ih1.1 ih2.1

theorem norm_unclosed {ts es} (h : Unclosed ts es) : Unclosed (norm ts) es := by
  induction h with
  | last h1 h2 => rw [norm_append rfl]; exact .last (norm_values h1).1 (norm_values h2).1
  | nest h1 _ ih => rw [norm_append rfl]; exact .nest (norm_values h1).1 ih

theorem norm_name {n : PTok} {s : Str} {r : List PTok} (h : PlistSyntax.Name n s) (hb : beforeColon r = true) : norm (n :: r) = .str s :: norm r := by
  cases h with
  | str => rfl
  | quoted => simp [norm, hb]

theorem lax_before {ts es} (h : LaxDoc ts es) : beforeColon ts = false := by
  cases h with
  | nil => rfl
  | prop hn => cases hn <;> rfl
  | block hn => cases hn <;> rfl

theorem norm_lax {ts es} (h : LaxDoc ts es) : LaxDoc (norm ts) es := by
  induction h with
  | nil => exact .nil
  | @prop n s ts vs us es hn hv _ ih =>
    rw [List.cons_append, norm_name hn rfl]
    show LaxDoc (.str s :: .colon :: norm (ts ++ .semicolon :: us)) _
    rw [norm_append rfl]
    exact .prop .str (hv.imp (fun h => (norm_values h).1) norm_unclosed) ih
  | @block n s ts fs us es hn hd _ ih1 ih2 =>
    rw [List.cons_append, norm_name hn rfl]
    show LaxDoc (.str s :: .lcbrace :: norm (ts ++ .rcbrace :: us)) _
    rw [norm_append rfl]
    exact .block .str ih1 ih2

theorem lax_unique {ts es es'} (h : LaxDoc ts es) (h' : LaxDoc ts es') : es = es' := by
  have h1 := pp_lax h (n := ts.length + 2) (by omega)
  rw [pp_lax h' (n := ts.length + 2) (by omega)] at h1
  cases h1; rfl

end Clip.Spelling

namespace Clip
open PlistSyntax
variable {φ : Type}

/-- C115: the same tokens, with other blanks and line breaks, other kinds of quotes and other escapes, give the same picture or
are refused as well. -/
theorem C115_blanks (P : PlotEnv φ) (L : Layer φ) (toks : List PTok) (src src' : Str) (h : Text toks src) (h' : Text toks src') :
    evalAll P L src = evalAll P L src' := by
  unfold evalAll evalDocument
  have h1 := C46_plist_accepts_iff_partial src
  have key : ∀ r, plistParse (src.length + 2) src = some r ↔ plistParse (src'.length + 2) src' = some r := by
    intro r
    cases r with
    | some es => rw [Spelling.parse_text h, Spelling.parse_text h']
    | none =>
      rw [(C46_plist_accepts_iff_partial src [] _ (le_refl _)).2, (C46_plist_accepts_iff_partial src' [] _ (le_refl _)).2,
        plistTokens_text h, plistTokens_text h']
  rw [Option.ext key]

/-- C115: two accepted texts that differ in blanks, quotes around names, and commas only, give the same picture or none. -/
theorem C115_writing (P : PlotEnv φ) (L : Layer φ) (toks toks' : List PTok) (src src' : Str) (doc doc' : List Expr)
    (h : Text toks src) (h' : Text toks' src') (hd : LaxDoc toks doc) (hd' : LaxDoc toks' doc') (hw : SameWriting toks toks') :
    doc = doc' ∧ evalAll P L src = evalAll P L src' := by
  have : doc = doc' := by
    have h1 := Spelling.norm_lax hd
    rw [Spelling.norm_same hw] at h1
    exact Spelling.lax_unique h1 (Spelling.norm_lax hd')
  subst this
  refine ⟨rfl, ?_⟩
  unfold evalAll evalDocument
  rw [(Spelling.parse_text h doc).2 hd, (Spelling.parse_text h' doc).2 hd']

/-- C115, C06: commas and quotes around names can be left out: what is left is accepted as well. -/
theorem C115_plain (toks : List PTok) (doc : List Expr) (hd : LaxDoc toks doc) :
    ∃ toks', SameWriting toks toks' ∧ .comma ∉ toks' ∧ LaxDoc toks' doc := by
  refine ⟨Spelling.norm toks, ?_, ?_, Spelling.norm_lax hd⟩
  · clear hd
    induction toks with
    | nil => exact .nil
    | cons t ts ih =>
      cases t with
      | comma => exact .comma ih
      | quoted s =>
        unfold Spelling.norm
        split
        · rename_i hb; exact .name (.unquote s) hb ih
        · exact .tok (by simp) ih
      | _ => exact .tok (by simp) ih
  · clear hd
    induction toks with
    | nil => simp [Spelling.norm]
    | cons t ts ih =>
      cases t with
      | comma => exact ih
      | quoted s =>
        unfold Spelling.norm
        split <;> simp [ih]
      | _ => simp [Spelling.norm, ih]

/-- `"a": b, c;` and `a: b c;` are two ways to write the same document, and both are accepted. -/
example : SameWriting [.quoted "a".toList, .colon, .str "b".toList, .comma, .str "c".toList, .semicolon]
      [.str "a".toList, .colon, .str "b".toList, .str "c".toList, .semicolon] ∧
    LaxDoc [.quoted "a".toList, .colon, .str "b".toList, .comma, .str "c".toList, .semicolon]
      [.list [.literal "a".toList, .literal "b".toList, .literal "c".toList]] := by
  constructor
  · exact .name (.unquote _) rfl (.tok (by simp) (.tok (by simp) (.comma (.tok (by simp) (.tok (by simp) .nil)))))
  · exact .prop (ts := [.str "b".toList, .comma, .str "c".toList]) .quoted (.inl (.word (.comma (.word .nil)))) .nil

end Clip
