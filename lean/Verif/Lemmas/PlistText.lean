import Verif.Lemmas.Plist
set_option linter.unusedSimpArgs false
/-! What is accepted by the property list parser is written as the syntax says. -/
namespace Clip
open PlistSyntax

theorem plistQuoted_true (q c : Char) (cs : Str) :
    plistQuoted q true (c :: cs) = (c :: (plistQuoted q false cs).1, (plistQuoted q false cs).2) := by
  rw [plistQuoted]
  by_cases h1 : c = '"' ∨ c = '\''
  · simp [h1]
  · by_cases h2 : c = '\\'
    · subst h2; simp
    · simp [h1, h2]

theorem plistQuoted_split (q : Char) (hq : q = '"' ∨ q = '\'') (n : Nat) (cs : Str) (hn : cs.length ≤ n) :
    (∃ (body : List QC) (rest : Str), (∀ x ∈ body, QC.ok q x) ∧ cs = body.flatMap QC.text ++ q :: rest ∧
      plistQuoted q false cs = (body.map QC.char, rest)) ∨ (plistQuoted q false cs).2 = [] := by
  induction n generalizing cs with
  | zero =>
    have : cs = [] := by simpa using hn
    subst this; right; rfl
  | succ n ih =>
    have ext : ∀ (x : QC) (cs cs' : Str), x.ok q → cs = x.text ++ cs' → cs'.length ≤ n →
        plistQuoted q false cs = (x.char :: (plistQuoted q false cs').1, (plistQuoted q false cs').2) →
        (∃ (body : List QC) (rest : Str), (∀ x ∈ body, QC.ok q x) ∧ cs = body.flatMap QC.text ++ q :: rest ∧
          plistQuoted q false cs = (body.map QC.char, rest)) ∨ (plistQuoted q false cs).2 = [] := by
      intro x cs cs' hx he hl hp
      rcases ih cs' hl with ⟨body, rest, h1, h2, h3⟩ | h
      · left
        refine ⟨x :: body, rest, List.forall_mem_cons.2 ⟨hx, h1⟩, ?_, ?_⟩
        · rw [he, h2, List.flatMap_cons, List.append_assoc]
        · rw [hp, h3, List.map_cons]
      · right; rw [hp]; exact h
    cases cs with
    | nil => right; rfl
    | cons c cs =>
      have hl : cs.length ≤ n := by simpa using hn
      by_cases h1 : c = q
      · subst h1
        left
        refine ⟨[], cs, by simp, rfl, ?_⟩
        rw [plistQuoted]; simp [hq]
      · by_cases h2 : c = '\\'
        · subst h2
          cases cs with
          | nil => right; simp [plistQuoted]
          | cons d cs =>
            refine ext (.esc d) _ cs trivial rfl (by simp at hl; omega) ?_
            rw [plistQuoted]
            simp [plistQuoted_true, QC.char]
        · refine ext (.raw c) _ cs ⟨h1, h2⟩ rfl hl ?_
          rw [plistQuoted]
          by_cases h3 : c = '"' ∨ c = '\''
          · simp [h3, Ne.symm h1, QC.char]
          · simp [h2, h3, QC.char]

theorem plistWord_split (cs : Str) : cs = (plistWord cs).1 ++ (plistWord cs).2 ∧
    (∀ c ∈ (plistWord cs).1, c ∉ PlistSyntax.special) ∧ ∀ c ∈ (plistWord cs).2.head?, c ∈ PlistSyntax.special := by
  induction cs with
  | nil => simp [plistWord]
  | cons c cs ih =>
    rw [plistWord]
    split
    · rename_i h; simp [(plistDelim_iff c).1 h]
    · rename_i h
      refine ⟨by simpa using ih.1, ?_, ih.2.2⟩
      exact List.forall_mem_cons.2 ⟨fun hc => h ((plistDelim_iff c).2 hc), ih.2.1⟩

/-- The tokens are written in the text, unless it ends inside a quoted string. -/
theorem plistTokens_sound (src : Str) :
    Text (plistTokens src) src ∨ ∃ s, (plistTokens src).getLast? = some (.quoted s) := by
  have cons : ∀ (t : PTok) (w : Str) (rest : Str), Written t w → (isWord t = true → ∀ c ∈ rest.head?, c ∈ PlistSyntax.special) →
      (Text (plistTokens rest) rest ∨ ∃ s, (plistTokens rest).getLast? = some (.quoted s)) →
      Text (t :: plistTokens rest) (w ++ rest) ∨ ∃ s, (t :: plistTokens rest).getLast? = some (.quoted s) := by
    intro t w rest hw hs h
    rcases h with h | ⟨s, h⟩
    · exact .inl (.tok hw h hs)
    · right
      refine ⟨s, ?_⟩
      rw [List.getLast?_cons, h]; rfl
  fun_induction plistTokens src with
  | case1 => exact .inl .nil
  | case2 c cs hb ih =>
    rcases ih with h | h
    · exact .inl (.blank ((blank_iff c).1 hb) h)
    · exact .inr h
  | case3 cs _ ih => exact cons _ [','] cs .comma (by intro h; cases h) ih
  | case4 cs _ _ ih => exact cons _ [':'] cs .colon (by intro h; cases h) ih
  | case5 cs _ _ _ ih => exact cons _ [';'] cs .semicolon (by intro h; cases h) ih
  | case6 cs _ _ _ _ ih => exact cons _ ['('] cs .lparen (by intro h; cases h) ih
  | case7 cs _ _ _ _ _ ih => exact cons _ [')'] cs .rparen (by intro h; cases h) ih
  | case8 cs _ _ _ _ _ _ ih => exact cons _ ['{'] cs .lcbrace (by intro h; cases h) ih
  | case9 cs _ _ _ _ _ _ _ ih => exact cons _ ['}'] cs .rcbrace (by intro h; cases h) ih
  | case10 c cs _ _ _ _ _ _ _ _ hq ih =>
    rcases plistQuoted_split c hq _ cs (Nat.le_refl _) with ⟨body, rest, h1, h2, h3⟩ | h
    · rw [h3] at ih ⊢
      have := cons (.quoted (body.map QC.char)) (c :: body.flatMap QC.text ++ [c]) rest (.quoted hq h1)
        (by intro h; cases h) ih
      rw [h2]
      simpa using this
    · right
      refine ⟨(plistQuoted c false cs).1, ?_⟩
      rw [h]; simp [plistTokens]
  | case11 c cs h0 h1 h2 h3 h4 h5 h6 h7 hq ih =>
    obtain ⟨e, w1, w2⟩ := plistWord_split cs
    have := cons (.str (c :: (plistWord cs).1)) (c :: (plistWord cs).1) (plistWord cs).2 (.str (by simp) ?_) (fun _ => w2) ih
    · rw [List.cons_append, ← e] at this; exact this
    · refine List.forall_mem_cons.2 ⟨?_, w1⟩
      rw [← plistDelim_iff]
      simp only [not_or] at hq
      simp [isPlistDelim, h0, h1, h2, h3, h4, h5, h6, h7, hq.1, hq.2]

/-- A text is accepted as the document `es` exactly if it is written that way. -/
theorem laxDoc_text (src : Str) (es : List Expr) : LaxDoc (plistTokens src) es ↔ ∃ ts, Text ts src ∧ LaxDoc ts es := by
  constructor
  · intro h
    refine ⟨_, ?_, h⟩
    rcases plistTokens_sound src with ht | ⟨s, hs⟩
    · exact ht
    · have := h.last (.quoted s) (by rw [hs]; rfl)
      simp at this
  · rintro ⟨ts, ht, h⟩
    rw [plistTokens_text ht]; exact h

end Clip
