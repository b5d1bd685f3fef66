import Verif.Spec.PlistSyntax
import Verif.Lemmas.Sexpr
set_option linter.unusedSimpArgs false
namespace Clip
open PlistSyntax

/-! Helper lemmas for `Props/Plist.lean`. -/

theorem plistDelim_iff (c : Char) : isPlistDelim c = true ↔ c ∈ PlistSyntax.special := by
  simp [isPlistDelim, isBlank, PlistSyntax.special, or_assoc]

theorem plistWord_eq (w cs : Str) (hw : ∀ c ∈ w, c ∉ PlistSyntax.special)
    (hcs : ∀ c ∈ cs.head?, c ∈ PlistSyntax.special) : plistWord (w ++ cs) = (w, cs) := by
  induction w with
  | nil =>
    cases cs with
    | nil => simp [plistWord]
    | cons c cs =>
      have : isPlistDelim c = true := (plistDelim_iff c).2 (hcs c (by simp))
      simp [plistWord, this]
  | cons c w ih =>
    simp only [List.mem_cons, forall_eq_or_imp] at hw
    have : ¬ isPlistDelim c = true := fun h => hw.1 ((plistDelim_iff c).1 h)
    simp [plistWord, this, ih hw.2]

theorem plistQuoted_eq (q : Char) (hq : q = '"' ∨ q = '\'') (body : List QC)
    (hb : ∀ x ∈ body, x.ok q) (cs : Str) :
    plistQuoted q false (body.flatMap QC.text ++ q :: cs) = (body.map QC.char, cs) := by
  induction body with
  | nil => simp [plistQuoted, hq]
  | cons x body ih =>
    simp only [List.mem_cons, forall_eq_or_imp] at hb
    have ih := ih hb.2
    cases x with
    | raw c =>
      have hc : c ≠ q ∧ c ≠ '\\' := hb.1
      simp only [List.flatMap_cons, QC.text, List.cons_append, List.nil_append, plistQuoted, hc.2,
        if_false, ih, List.map_cons, QC.char]
      have : q ≠ c := hc.1.symm
      simp [this]
    | esc c =>
      simp only [List.flatMap_cons, QC.text, List.cons_append, List.nil_append, plistQuoted,
        List.map_cons, QC.char]
      by_cases h1 : c = '"' ∨ c = '\''
      · simp [h1, ih]
      · by_cases h2 : c = '\\'
        · simp [h2, ih]
        · simp [h1, h2, ih]

theorem plistTokens_append {ts : List PTok} {text : Str} (h : Text ts text) (rest : Str)
    (hrest : ∀ c ∈ rest.head?, c ∈ PlistSyntax.special) :
    plistTokens (text ++ rest) = ts ++ plistTokens rest := by
  induction h with
  | nil => simp
  | @blank c ts text hc _ ih =>
    have := (blank_iff c).2 hc
    rw [List.cons_append, plistTokens]; simp [this, ih]
  | tok hw ht hs ih =>
    rename_i t w ts text
    cases hw with
    | comma => simp only [List.cons_append, List.nil_append, List.append_assoc]; rw [plistTokens]; simp [isBlank, ih]
    | colon => simp only [List.cons_append, List.nil_append, List.append_assoc]; rw [plistTokens]; simp [isBlank, ih]
    | semicolon => simp only [List.cons_append, List.nil_append, List.append_assoc]; rw [plistTokens]; simp [isBlank, ih]
    | lparen => simp only [List.cons_append, List.nil_append, List.append_assoc]; rw [plistTokens]; simp [isBlank, ih]
    | rparen => simp only [List.cons_append, List.nil_append, List.append_assoc]; rw [plistTokens]; simp [isBlank, ih]
    | lcbrace => simp only [List.cons_append, List.nil_append, List.append_assoc]; rw [plistTokens]; simp [isBlank, ih]
    | rcbrace => simp only [List.cons_append, List.nil_append, List.append_assoc]; rw [plistTokens]; simp [isBlank, ih]
    | str hne hw =>
      cases w with
      | nil => exact absurd rfl hne
      | cons c w =>
        have hc := hw c (by simp)
        have hpw := plistWord_eq w (text ++ rest) (fun c hc => hw c (by simp [hc])) (by
          cases text with
          | nil => exact hrest
          | cons d text => simpa using hs rfl)
        simp only [PlistSyntax.special, List.mem_cons, List.not_mem_nil, or_false, not_or] at hc
        rw [List.append_assoc, List.cons_append, plistTokens]
        simp [isBlank, hc, hpw, ih]
    | quoted hq hb =>
      rename_i q body
      have hpq := plistQuoted_eq q hq body hb (text ++ rest)
      simp only [List.cons_append, List.append_assoc, List.nil_append]
      rw [plistTokens]
      rcases hq with rfl | rfl <;> simp [isBlank, hpq, ih]

theorem plistTokens_text {ts : List PTok} {text : Str} (h : Text ts text) :
    plistTokens text = ts := by
  have := plistTokens_append h [] (by simp)
  simpa [plistTokens] using this

theorem plistQuoted_open (q : Char) (body : List QC) (hb : ∀ x ∈ body, x.ok q) (tail : Str)
    (ht : tail = [] ∨ tail = ['\\']) (hq : q = '"' ∨ q = '\'') :
    plistQuoted q false (body.flatMap QC.text ++ tail) = (body.map QC.char, []) := by
  induction body with
  | nil => rcases ht with rfl | rfl <;> simp [plistQuoted]
  | cons x body ih =>
    simp only [List.mem_cons, forall_eq_or_imp] at hb
    have ih := ih hb.2
    cases x with
    | raw c =>
      have hc : c ≠ q ∧ c ≠ '\\' := hb.1
      have : q ≠ c := hc.1.symm
      simp [QC.text, plistQuoted, hc.2, ih, QC.char, this]
    | esc c =>
      by_cases h1 : c = '"' ∨ c = '\''
      · simp [QC.text, plistQuoted, QC.char, h1, ih]
      · by_cases h2 : c = '\\'
        · simp [QC.text, plistQuoted, QC.char, h2, ih]
        · simp [QC.text, plistQuoted, QC.char, h1, h2, ih]

theorem PlistSyntax.LaxDoc.last {ts es} (h : LaxDoc ts es) :
    ∀ t ∈ ts.getLast?, t = .semicolon ∨ t = .rcbrace := by
  induction h with
  | nil => simp
  | @prop n s ts vs us es hn hv h ih =>
    intro t ht
    cases us with
    | nil => simp [List.getLast?_cons, List.getLast?_append] at ht; exact .inl ht.symm
    | cons u us =>
      apply ih
      simpa [List.getLast?_cons, List.getLast?_append] using ht
  | @block n s ts fs us es hn h1 h2 ih1 ih2 =>
    intro t ht
    cases us with
    | nil => simp [List.getLast?_cons, List.getLast?_append] at ht; exact .inr ht.symm
    | cons u us =>
      apply ih2
      simpa [List.getLast?_cons, List.getLast?_append] using ht

/-! ## Values -/

/-- End of a value list. -/
def Stops (r : List PTok) : Prop :=
  r = [] ∨ (∃ r', r = .semicolon :: r') ∨ ∃ r', r = .rparen :: r'

theorem pv_stop {n : Nat} {r : List PTok} (h : Stops r) (hn : 0 < n) :
    parsePropertyValues n r = some (some ([], r)) := by
  obtain ⟨n, rfl⟩ : ∃ k, n = k + 1 := ⟨n - 1, by omega⟩
  rcases h with rfl | ⟨r, rfl⟩ | ⟨r, rfl⟩ <;> simp [parsePropertyValues]

theorem PlistSyntax.Values.head {ts es} (h : Values ts es) : ∀ us, ts ≠ .lparen :: us := by
  intro us hh
  cases h <;> simp at hh

theorem pv_values {ts es} (h : Values ts es) {r : List PTok} (hr : Stops r) {n : Nat}
    (hn : ts.length < n) : parsePropertyValues n (ts ++ r) = some (some (es, r)) := by
  induction h generalizing r n with
  | nil => exact pv_stop hr (by simpa using hn)
  | comma h ih =>
    obtain ⟨n, rfl⟩ : ∃ k, n = k + 1 := ⟨n - 1, by omega⟩
    simp only [List.cons_append, parsePropertyValues]
    exact ih hr (by simp at hn; omega)
  | quoted h ih =>
    obtain ⟨n, rfl⟩ : ∃ k, n = k + 1 := ⟨n - 1, by omega⟩
    simp only [List.cons_append, parsePropertyValues]
    rw [ih hr (by simp at hn; omega)]
  | word h ih =>
    rename_i s ts es
    obtain ⟨n, rfl⟩ : ∃ k, n = k + 1 := ⟨n - 1, by omega⟩
    have hne : ∀ us, ts ++ r ≠ .lparen :: us := by
      intro us hh
      cases ts with
      | nil =>
        simp only [List.nil_append] at hh
        subst hh
        rcases hr with h | ⟨_, h⟩ | ⟨_, h⟩ <;> simp at h
      | cons t ts => 
        simp only [List.cons_append, List.cons.injEq] at hh
        exact Values.head h ts (by rw [hh.1])
    simp only [List.cons_append]
    rw [parsePropertyValues.eq_8 _ _ _ (fun us => hne us)]
    rw [ih hr (by simp at hn; omega)]
  | call h1 h2 ih1 ih2 =>
    rename_i s ts es us fs
    obtain ⟨n, rfl⟩ : ∃ k, n = k + 1 := ⟨n - 1, by omega⟩
    simp only [List.cons_append, List.append_assoc, parsePropertyValues]
    simp only [List.length_cons, List.length_append] at hn
    rw [ih1 (r := .rparen :: (us ++ r)) (.inr (.inr ⟨_, rfl⟩)) (by omega)]
    simp only [dropRparen]
    rw [ih2 hr (by omega)]

theorem PlistSyntax.Values.append {ts es us fs} (h : Values ts es) (h' : Values us fs) :
    Values (ts ++ us) (es ++ fs) := by
  induction h with
  | nil => exact h'
  | comma _ ih => exact .comma ih
  | quoted _ ih => exact .quoted ih
  | word _ ih => exact .word ih
  | call h1 _ _ ih2 =>
    have := Values.call (s := by assumption) h1 ih2
    simpa using this

/-- Parsing goes through a complete value list followed by more values. -/
theorem pv_append {ts es} (h : Values ts es) {us fs r} {n : Nat}
    (hus : ∀ m, us.length < m → parsePropertyValues m us = some (some (fs, r)))
    (hlp : ∀ vs, us ≠ .lparen :: vs)
    (hn : (ts ++ us).length < n) : parsePropertyValues n (ts ++ us) = some (some (es ++ fs, r)) := by
  induction h generalizing n with
  | nil => exact hus n (by simpa using hn)
  | comma h ih =>
    obtain ⟨n, rfl⟩ : ∃ k, n = k + 1 := ⟨n - 1, by omega⟩
    simp only [List.cons_append, parsePropertyValues]
    exact ih (by simp at hn ⊢; omega)
  | quoted h ih =>
    obtain ⟨n, rfl⟩ : ∃ k, n = k + 1 := ⟨n - 1, by omega⟩
    simp only [List.cons_append, parsePropertyValues]
    rw [ih (by simp at hn ⊢; omega)]
  | word h ih =>
    rename_i s ts es
    obtain ⟨n, rfl⟩ : ∃ k, n = k + 1 := ⟨n - 1, by omega⟩
    have hne : ∀ vs, ts ++ us ≠ .lparen :: vs := by
      intro vs hh
      cases ts with
      | nil => exact hlp _ (by simpa using hh)
      | cons t ts => 
        simp only [List.cons_append, List.cons.injEq] at hh
        exact Values.head h ts (by rw [hh.1])
    simp only [List.cons_append]
    rw [parsePropertyValues.eq_8 _ _ _ (fun vs => hne vs)]
    rw [ih (by simp at hn ⊢; omega)]
  | call h1 h2 ih1 ih2 =>
    rename_i s ts es us' fs'
    obtain ⟨n, rfl⟩ : ∃ k, n = k + 1 := ⟨n - 1, by omega⟩
    simp only [List.cons_append, List.append_assoc, parsePropertyValues]
    simp only [List.length_cons, List.length_append] at hn
    rw [pv_values h1 (r := .rparen :: (us' ++ us)) (.inr (.inr ⟨_, rfl⟩)) (by omega)]
    simp only [dropRparen]
    rw [ih2 (by simp; omega)]

theorem pv_unclosed {ts es} (h : Unclosed ts es) {r : List PTok}
    (hr : r = [] ∨ ∃ r', r = .semicolon :: r') {n : Nat}
    (hn : (ts ++ r).length < n) : parsePropertyValues n (ts ++ r) = some (some (es, r)) := by
  have hst : Stops r := by rcases hr with h | h; exact .inl h; exact .inr (.inl h)
  have hno : dropRparen r = r := by
    rcases hr with rfl | ⟨_, rfl⟩ <;> rfl
  induction h generalizing n with
  | last h1 h2 =>
    rename_i ts es s us fs
    rw [List.append_assoc]
    refine pv_append h1 (us := .str s :: .lparen :: us ++ r) ?_ (by simp) (by simpa using hn)
    intro m hm
    obtain ⟨m, rfl⟩ : ∃ k, m = k + 1 := ⟨m - 1, by omega⟩
    simp only [List.cons_append, List.length_cons, List.length_append] at hm
    simp only [List.cons_append, parsePropertyValues]
    rw [pv_values h2 hst (by omega)]
    simp only
    rw [hno, pv_stop hst (by omega)]
  | nest h1 h2 ih =>
    rename_i ts es s us fs
    rw [List.append_assoc]
    refine pv_append h1 (us := .str s :: .lparen :: us ++ r) ?_ (by simp) (by simpa using hn)
    intro m hm
    obtain ⟨m, rfl⟩ : ∃ k, m = k + 1 := ⟨m - 1, by omega⟩
    simp only [List.cons_append, List.length_cons, List.length_append] at hm
    simp only [List.cons_append, parsePropertyValues]
    rw [ih (by simp; omega)]
    simp only
    rw [hno, pv_stop hst (by omega)]

theorem PlistSyntax.Unclosed.prepend {ts es us fs} (h : Values ts es) (h' : Unclosed us fs) :
    Unclosed (ts ++ us) (es ++ fs) := by
  cases h' with
  | last h1 h2 =>
    have := Unclosed.last (s := by assumption) (h.append h1) h2
    simpa using this
  | nest h1 h2 =>
    have := Unclosed.nest (s := by assumption) (h.append h1) h2
    simpa using this

/-- Whatever `parsePropertyValues` accepts is a value list, possibly with missing closing
parentheses if the list is ended by `;` or the end of the input. -/
theorem pv_sound (n : Nat) (ts : List PTok) (es : List Expr) (r : List PTok)
    (h : parsePropertyValues n ts = some (some (es, r))) :
    ∃ us, ts = us ++ r ∧ Stops r ∧
      (Values us es ∨ (Unclosed us es ∧ (r = [] ∨ ∃ r', r = .semicolon :: r'))) := by
  fun_induction parsePropertyValues n ts generalizing es r with
  | case1 => simp at h
  | case2 => 
    simp only [Option.some.injEq, Prod.mk.injEq] at h; obtain ⟨rfl, rfl⟩ := h
    exact ⟨[], rfl, .inl rfl, .inl .nil⟩
  | case3 =>
    simp only [Option.some.injEq, Prod.mk.injEq] at h; obtain ⟨rfl, rfl⟩ := h
    exact ⟨[], rfl, .inr (.inl ⟨_, rfl⟩), .inl .nil⟩
  | case4 =>
    simp only [Option.some.injEq, Prod.mk.injEq] at h; obtain ⟨rfl, rfl⟩ := h
    exact ⟨[], rfl, .inr (.inr ⟨_, rfl⟩), .inl .nil⟩
  | case5 fuel ts ih =>
    obtain ⟨us, rfl, hs, hv⟩ := ih es r h
    refine ⟨.comma :: us, rfl, hs, ?_⟩
    rcases hv with hv | ⟨hv, hr⟩
    · exact .inl (.comma hv)
    · exact .inr ⟨Unclosed.prepend (ts := [.comma]) (es := []) (.comma .nil) hv, hr⟩
  | case6 fuel s ts es' r' hx ih =>
    simp only [Option.some.injEq, Prod.mk.injEq] at h; obtain ⟨rfl, rfl⟩ := h
    obtain ⟨us, rfl, hs, hv⟩ := ih es' r' hx
    refine ⟨.quoted s :: us, rfl, hs, ?_⟩
    rcases hv with hv | ⟨hv, hr⟩
    · exact .inl (.quoted hv)
    · exact .inr ⟨Unclosed.prepend (ts := [.quoted s]) (es := [.value s]) (.quoted .nil) hv, hr⟩
  | case7 fuel s ts hx ih => exact absurd h (hx _ _)
  | case8 fuel s ts args r1 hx es' r' hy ih1 ih2 =>
    simp only [Option.some.injEq, Prod.mk.injEq] at h; obtain ⟨rfl, rfl⟩ := h
    obtain ⟨us, rfl, hs, hv⟩ := ih1 args r1 hx
    obtain ⟨us2, h2, hs2, hv2⟩ := ih2 es' r' hy
    rcases hs with rfl | ⟨r2, rfl⟩ | ⟨r2, rfl⟩
    · simp only [dropRparen] at h2
      have hz : us2 = [] ∧ r' = [] := by simpa using h2.symm
      obtain ⟨rfl, rfl⟩ := hz
      have hes : es' = [] := by
        obtain ⟨n, rfl⟩ : ∃ k, fuel = k + 1 := by
          cases fuel with
          | zero => simp [parsePropertyValues] at hx
          | succ k => exact ⟨k, rfl⟩
        simp [parsePropertyValues, dropRparen] at hy; exact hy
      subst hes
      refine ⟨.str s :: .lparen :: us, by simp, .inl rfl, .inr ⟨?_, .inl rfl⟩⟩
      rcases hv with hv | ⟨hv, _⟩
      · simpa using Unclosed.last (s := s) .nil hv
      · simpa using Unclosed.nest (s := s) .nil hv
    · simp only [dropRparen] at h2
      have hst : Stops (PTok.semicolon :: r2) := .inr (.inl ⟨_, rfl⟩)
      have hyy : es' = [] ∧ r' = .semicolon :: r2 := by
        cases fuel with
        | zero => simp [parsePropertyValues] at hx
        | succ k =>
          simp [parsePropertyValues, dropRparen] at hy; exact ⟨hy.1, hy.2.symm⟩
      obtain ⟨rfl, rfl⟩ := hyy
      refine ⟨.str s :: .lparen :: us, by simp, hst, .inr ⟨?_, .inr ⟨_, rfl⟩⟩⟩
      rcases hv with hv | ⟨hv, _⟩
      · simpa using Unclosed.last (s := s) .nil hv
      · simpa using Unclosed.nest (s := s) .nil hv
    · simp only [dropRparen] at h2
      subst h2
      have hv : Values us args := by
        rcases hv with hv | ⟨_, h⟩
        · exact hv
        · rcases h with h | ⟨_, h⟩ <;> simp at h
      refine ⟨.str s :: .lparen :: us ++ .rparen :: us2, by simp, hs2, ?_⟩
      rcases hv2 with hv2 | ⟨hv2, hr⟩
      · exact .inl (.call hv hv2)
      · refine .inr ⟨?_, hr⟩
        have := Unclosed.prepend (Values.call (s := s) hv .nil) hv2
        simpa using this
  | case9 fuel s ts args r1 hx hy ih1 ih2 => exact absurd h (hy _ _)
  | case10 fuel s ts hx ih => exact absurd h (hx _ _)
  | case11 fuel s ts hl es' r' hx ih =>
    simp only [Option.some.injEq, Prod.mk.injEq] at h; obtain ⟨rfl, rfl⟩ := h
    obtain ⟨us, rfl, hs, hv⟩ := ih es' r' hx
    refine ⟨.str s :: us, rfl, hs, ?_⟩
    rcases hv with hv | ⟨hv, hr⟩
    · exact .inl (.word hv)
    · exact .inr ⟨Unclosed.prepend (ts := [.str s]) (es := [.literal s]) (.word .nil) hv, hr⟩
  | case12 fuel s ts hl hx ih => exact absurd h (hx _ _)
  | case13 => simp at h
  | case14 => simp at h
  | case15 => simp at h
  | case16 => simp at h

/-! ## Fuel -/

theorem pv_total (n : Nat) (ts : List PTok) (hn : ts.length < n) :
    ∃ x, parsePropertyValues n ts = some x := by
  fun_induction parsePropertyValues n ts with
  | case1 => simp at hn
  | case2 => exact ⟨_, rfl⟩
  | case3 => exact ⟨_, rfl⟩
  | case4 => exact ⟨_, rfl⟩
  | case5 fuel ts ih => exact ih (by simp at hn; omega)
  | case6 => exact ⟨_, rfl⟩
  | case7 fuel s ts hx ih => exact ih (by simp at hn; omega)
  | case8 => exact ⟨_, rfl⟩
  | case9 fuel s ts args r1 hx hy ih1 ih2 =>
    obtain ⟨us, hus, _, _⟩ := pv_sound _ _ _ _ hx
    refine ih2 ?_
    subst hus
    simp at hn
    have : (dropRparen r1).length ≤ r1.length := by unfold dropRparen; split <;> simp
    omega
  | case10 fuel s ts hx ih => exact ih (by simp at hn; omega)
  | case11 => exact ⟨_, rfl⟩
  | case12 fuel s ts hl hx ih => exact ih (by simp at hn; omega)
  | case13 => exact ⟨_, rfl⟩
  | case14 => exact ⟨_, rfl⟩
  | case15 => exact ⟨_, rfl⟩
  | case16 => exact ⟨_, rfl⟩


theorem pom_some_iff (n : Nat) (t : PTok) (pname : Str) (hname : Name t pname) (ts : List PTok) :
    parsePropertyOrMap (n + 1) (t :: ts) =
      match ts with
      | .colon :: ts =>
        match parsePropertyValues n ts with
        | some (some (vals, .semicolon :: r)) => some (some (.list (.literal pname :: vals), r))
        | some _ => some none
        | none => none
      | .lcbrace :: ts =>
        match parsePropertyMap n ts with
        | some (some (es, .rcbrace :: r)) => some (some (.list (.literal pname :: es), r))
        | some _ => some none
        | none => none
      | _ => some none := by
  cases hname <;> (simp only [parsePropertyOrMap]; rfl)

theorem PlistSyntax.Name.ne_rcbrace {t s} (h : Name t s) : t ≠ .rcbrace := by cases h <;> simp

theorem pm_cons {n : Nat} {t : PTok} {ts : List PTok} (ht : t ≠ .rcbrace) :
    parsePropertyMap (n + 1) (t :: ts) =
      match parsePropertyOrMap n (t :: ts) with
      | some (some (e, r)) =>
        match parsePropertyMap n r with
        | some (some (es, r')) => some (some (e :: es, r'))
        | x => x
      | some none => some none
      | none => none := by
  rw [parsePropertyMap.eq_4]
  · rfl
  · rintro ⟨⟩
  · rintro _ ⟨⟩; exact ht rfl

theorem pm_lax {ts es} (h : LaxDoc ts es) {r : List PTok}
    (hr : r = [] ∨ ∃ r', r = .rcbrace :: r') {n : Nat} (hn : (ts ++ r).length + 1 < n) :
    parsePropertyMap n (ts ++ r) = some (some (es, r)) := by
  induction h generalizing r n with
  | nil =>
    obtain ⟨n, rfl⟩ : ∃ k, n = k + 1 := ⟨n - 1, by omega⟩
    rcases hr with rfl | ⟨r, rfl⟩ <;> simp [parsePropertyMap]
  | prop hname hv h ih =>
    rename_i t s ts vs us es
    obtain ⟨n, rfl⟩ : ∃ k, n = k + 2 := ⟨n - 2, by omega⟩
    simp only [List.cons_append, List.append_assoc, List.length_cons, List.length_append] at hn ⊢
    rw [pm_cons hname.ne_rcbrace, pom_some_iff _ _ _ hname]
    have : parsePropertyValues n (ts ++ .semicolon :: (us ++ r)) =
        some (some (vs, .semicolon :: (us ++ r))) := by
      rcases hv with hv | hv
      · exact pv_values hv (.inr (.inl ⟨_, rfl⟩)) (by omega)
      · exact pv_unclosed hv (.inr ⟨_, rfl⟩) (by simp; omega)
    simp only [this]
    rw [ih hr (by simp; omega)]
  | block hname h1 h2 ih1 ih2 =>
    rename_i t s ts fs us es
    obtain ⟨n, rfl⟩ : ∃ k, n = k + 2 := ⟨n - 2, by omega⟩
    simp only [List.cons_append, List.append_assoc, List.length_cons, List.length_append] at hn ⊢
    rw [pm_cons hname.ne_rcbrace, pom_some_iff _ _ _ hname]
    have : parsePropertyMap n (ts ++ .rcbrace :: (us ++ r)) =
        some (some (fs, .rcbrace :: (us ++ r))) := ih1 (.inr ⟨_, rfl⟩) (by simp; omega)
    simp only [this]
    rw [ih2 hr (by simp; omega)]

theorem pp_cons {n : Nat} {t : PTok} {ts : List PTok} :
    plistParseToks (n + 1) (t :: ts) =
      match parsePropertyOrMap n (t :: ts) with
      | some (some (e, r)) =>
        match plistParseToks n r with
        | some (some es) => some (some (e :: es))
        | x => x
      | some none => some none
      | none => none := by
  rw [plistParseToks.eq_3]
  · rfl
  · rintro ⟨⟩

theorem pp_lax {ts es} (h : LaxDoc ts es) {n : Nat} (hn : ts.length + 1 < n) :
    plistParseToks n ts = some (some es) := by
  induction h generalizing n with
  | nil =>
    obtain ⟨n, rfl⟩ : ∃ k, n = k + 1 := ⟨n - 1, by omega⟩
    simp [plistParseToks]
  | prop hname hv h ih =>
    rename_i t s ts vs us es
    obtain ⟨n, rfl⟩ : ∃ k, n = k + 2 := ⟨n - 2, by omega⟩
    simp only [List.cons_append, List.append_assoc, List.length_cons, List.length_append] at hn ⊢
    rw [pp_cons, pom_some_iff _ _ _ hname]
    have : parsePropertyValues n (ts ++ .semicolon :: us) =
        some (some (vs, .semicolon :: us)) := by
      rcases hv with hv | hv
      · exact pv_values hv (.inr (.inl ⟨_, rfl⟩)) (by omega)
      · exact pv_unclosed hv (.inr ⟨_, rfl⟩) (by simp; omega)
    simp only [this]
    rw [ih (by omega)]
  | block hname h1 h2 ih1 ih2 =>
    rename_i t s ts fs us es
    obtain ⟨n, rfl⟩ : ∃ k, n = k + 2 := ⟨n - 2, by omega⟩
    simp only [List.cons_append, List.append_assoc, List.length_cons, List.length_append] at hn ⊢
    rw [pp_cons, pom_some_iff _ _ _ hname]
    have : parsePropertyMap n (ts ++ .rcbrace :: us) =
        some (some (fs, .rcbrace :: us)) := pm_lax h1 (.inr ⟨_, rfl⟩) (by simp; omega)
    simp only [this]
    rw [ih2 (by omega)]

/-- One property or block. -/
inductive LaxProp : List PTok → Expr → Prop
  | prop {n s ts vs} : Name n s → (Values ts vs ∨ Unclosed ts vs) →
      LaxProp (n :: .colon :: ts ++ [.semicolon]) (.list (.literal s :: vs))
  | block {n s ts fs} : Name n s → LaxDoc ts fs →
      LaxProp (n :: .lcbrace :: ts ++ [.rcbrace]) (.list (.literal s :: fs))

theorem LaxProp.doc {ts e us es} (h : LaxProp ts e) (h' : LaxDoc us es) :
    LaxDoc (ts ++ us) (e :: es) := by
  cases h with
  | prop hn hv => have := LaxDoc.prop hn hv h'; simpa using this
  | block hn hd => have := LaxDoc.block hn hd h'; simpa using this

theorem pom_name {n : Nat} {ts : List PTok} {e : Expr} {r : List PTok}
    (h : parsePropertyOrMap (n + 1) ts = some (some (e, r))) :
    ∃ t s us, ts = t :: us ∧ Name t s := by
  cases ts with
  | nil => simp [parsePropertyOrMap] at h
  | cons t us =>
    cases t with
    | str s => exact ⟨_, s, us, rfl, .str⟩
    | quoted s => exact ⟨_, s, us, rfl, .quoted⟩
    | _ => simp [parsePropertyOrMap] at h

theorem pom_pm_sound (n : Nat) :
    (∀ ts e r, parsePropertyOrMap n ts = some (some (e, r)) → ∃ us, ts = us ++ r ∧ LaxProp us e) ∧
    (∀ ts es r, parsePropertyMap n ts = some (some (es, r)) →
      ∃ us, ts = us ++ r ∧ LaxDoc us es ∧ (r = [] ∨ ∃ r', r = .rcbrace :: r')) := by
  induction n with
  | zero => constructor <;> (intro ts e r h; simp [parsePropertyOrMap, parsePropertyMap] at h)
  | succ n ih =>
    constructor
    · intro ts e r h
      obtain ⟨t, s, us, rfl, hname⟩ := pom_name h
      rw [pom_some_iff _ _ _ hname] at h
      split at h
      · rename_i ts
        split at h
        · rename_i vals r' hv
          simp only [Option.some.injEq, Prod.mk.injEq] at h
          obtain ⟨rfl, rfl⟩ := h
          obtain ⟨us, rfl, _, hv⟩ := pv_sound _ _ _ _ hv
          refine ⟨t :: .colon :: us ++ [.semicolon], by simp, .prop hname ?_⟩
          rcases hv with h | h
          · exact .inl h
          · exact .inr h.1
        · simp at h
        · simp at h
      · rename_i ts
        split at h
        · rename_i fs r' hv
          simp only [Option.some.injEq, Prod.mk.injEq] at h
          obtain ⟨rfl, rfl⟩ := h
          obtain ⟨us, rfl, hd, _⟩ := ih.2 _ _ _ hv
          exact ⟨t :: .lcbrace :: us ++ [.rcbrace], by simp, .block hname hd⟩
        · simp at h
        · simp at h
      · simp at h
    · intro ts es r h
      cases ts with
      | nil =>
        simp [parsePropertyMap] at h; obtain ⟨rfl, rfl⟩ := h
        exact ⟨[], rfl, .nil, .inl rfl⟩
      | cons t ts =>
        by_cases ht : t = .rcbrace
        · subst ht
          simp [parsePropertyMap] at h; obtain ⟨rfl, rfl⟩ := h
          exact ⟨[], rfl, .nil, .inr ⟨_, rfl⟩⟩
        · rw [pm_cons ht] at h
          split at h
          · rename_i e r1 h1
            split at h
            · rename_i es' r2 h2
              simp only [Option.some.injEq, Prod.mk.injEq] at h
              obtain ⟨rfl, rfl⟩ := h
              obtain ⟨us, h3, hp⟩ := ih.1 _ _ _ h1
              obtain ⟨us2, rfl, hd, hr⟩ := ih.2 _ _ _ h2
              exact ⟨us ++ us2, by simp [h3], hp.doc hd, hr⟩
            · rename_i hx; exact absurd h (hx _ _)
          · simp at h
          · simp at h

theorem pp_sound (n : Nat) (ts es) (h : plistParseToks n ts = some (some es)) : LaxDoc ts es := by
  induction n generalizing ts es with
  | zero => simp [plistParseToks] at h
  | succ n ih =>
    cases ts with
    | nil => simp [plistParseToks] at h; subst h; exact .nil
    | cons t ts =>
      rw [pp_cons] at h
      split at h
      · rename_i e r1 h1
        split at h
        · rename_i es' h2
          simp only [Option.some.injEq] at h; subst h
          obtain ⟨us, h3, hp⟩ := (pom_pm_sound n).1 _ _ _ h1
          rw [h3]
          exact hp.doc (ih _ _ h2)
        · rename_i hx; exact absurd h (hx _)
      · simp at h
      · simp at h

theorem LaxProp.pos {ts e} (h : LaxProp ts e) : 2 ≤ ts.length := by cases h <;> simp

theorem pom_pm_total (n : Nat) :
    (∀ ts, ts.length < n → ∃ x, parsePropertyOrMap n ts = some x) ∧
    (∀ ts, ts.length + 1 < n → ∃ x, parsePropertyMap n ts = some x) := by
  induction n with
  | zero => constructor <;> (intro ts h; omega)
  | succ n ih =>
    constructor
    · intro ts hn
      have key : ∀ t s us, t :: us = ts → Name t s → ∃ x, parsePropertyOrMap (n + 1) ts = some x := by
        rintro t s us rfl hname
        rw [pom_some_iff _ _ _ hname]
        simp only [List.length_cons] at hn
        split
        · rename_i ts
          obtain ⟨x, hx⟩ := pv_total n ts (by simp at hn; omega)
          rw [hx]
          split
          · exact ⟨_, rfl⟩
          · exact ⟨_, rfl⟩
          · rename_i h; simp at h
        · rename_i ts
          obtain ⟨x, hx⟩ := ih.2 ts (by simp at hn; omega)
          rw [hx]
          split
          · exact ⟨_, rfl⟩
          · exact ⟨_, rfl⟩
          · rename_i h; simp at h
        · exact ⟨_, rfl⟩
      cases ts with
      | nil => exact ⟨_, by simp [parsePropertyOrMap]; rfl⟩
      | cons t us =>
        cases t with
        | str s => exact key _ _ _ rfl .str
        | quoted s => exact key _ _ _ rfl .quoted
        | _ => exact ⟨_, by simp [parsePropertyOrMap]; rfl⟩
    · intro ts hn
      cases ts with
      | nil => exact ⟨_, by simp [parsePropertyMap]; rfl⟩
      | cons t ts =>
        by_cases ht : t = .rcbrace
        · subst ht; exact ⟨_, by simp [parsePropertyMap]; rfl⟩
        · rw [pm_cons ht]
          simp only [List.length_cons] at hn
          obtain ⟨x, hx⟩ := ih.1 (t :: ts) (by simp; omega)
          rw [hx]
          match x with
          | none => exact ⟨_, rfl⟩
          | some (e, r) =>
            obtain ⟨us, h1, h2⟩ := (pom_pm_sound n).1 _ _ _ hx
            have := h2.pos
            have hl := congrArg List.length h1
            simp at hl
            obtain ⟨y, hy⟩ := ih.2 r (by omega)
            simp only [hy]
            match y with
            | none => exact ⟨_, rfl⟩
            | some (es, r') => exact ⟨_, rfl⟩

theorem pp_total (n : Nat) (ts : List PTok) (hn : ts.length + 1 < n) :
    ∃ x, plistParseToks n ts = some x := by
  induction n generalizing ts with
  | zero => omega
  | succ n ih =>
    cases ts with
    | nil => exact ⟨_, by simp [plistParseToks]; rfl⟩
    | cons t ts =>
      rw [pp_cons]
      simp only [List.length_cons] at hn
      obtain ⟨x, hx⟩ := (pom_pm_total n).1 (t :: ts) (by simp; omega)
      rw [hx]
      match x with
      | none => exact ⟨_, rfl⟩
      | some (e, r) =>
        obtain ⟨us, h1, h2⟩ := (pom_pm_sound n).1 _ _ _ hx
        have := h2.pos
        have hl := congrArg List.length h1
        simp at hl
        obtain ⟨y, hy⟩ := ih r (by omega)
        simp only [hy]
        match y with
        | none => exact ⟨_, rfl⟩
        | some es => exact ⟨_, rfl⟩

theorem plistTokens_length (cs : Str) : (plistTokens cs).length ≤ cs.length := by
  fun_induction plistTokens cs with
  | case1 => simp
  | case10 c cs _ _ _ _ _ _ _ _ _ ih =>
    have := plistQuoted_le c false cs; simp; omega
  | case11 c cs _ _ _ _ _ _ _ _ _ ih =>
    have := plistWord_le cs; simp; omega
  | _ => simp; omega

theorem PlistSyntax.Doc.lax {ts es} (h : Doc ts es) : LaxDoc ts es := by
  induction h with
  | nil => exact .nil
  | prop hn hv _ ih => exact .prop hn (.inl hv) ih
  | block hn _ _ ih1 ih2 => exact .block hn ih1 ih2

/-! ## Printing -/

theorem Text.append_tok {ts text} (h : Text ts text) : Text ts text := h

theorem written_quoted (s : Str) : Written (.quoted s) (printQuoted s) := by
  have h := Written.quoted (q := '"')
    (body := s.map fun c => if c = '"' ∨ c = '\\' then QC.esc c else .raw c) (by simp) (by
      intro x hx
      simp only [List.mem_map] at hx
      obtain ⟨c, _, rfl⟩ := hx
      split
      · trivial
      · rename_i h; simp only [not_or] at h; exact h)
  have h1 : (s.map fun c => if c = '"' ∨ c = '\\' then QC.esc c else .raw c).map QC.char = s := by
    rw [List.map_map]
    conv => rhs; rw [← List.map_id s]
    apply List.map_congr_left
    intro c _
    simp only [Function.comp]
    split <;> rfl
  have h2 : (s.map fun c => if c = '"' ∨ c = '\\' then QC.esc c else .raw c).flatMap QC.text =
      s.flatMap fun c => if c = '"' ∨ c = '\\' then ['\\', c] else [c] := by
    rw [List.flatMap_map]
    congr 1
    funext c
    split <;> rfl
  rw [h1, h2] at h
  exact h

mutual
/-- Tokens of a value. -/
def PlistSyntax.PVal.toks : PVal → List PTok
  | .word s => [.str s]
  | .quoted s => [.quoted s]
  | .call n args => .str n :: .lparen :: PVal.tokss args ++ [.rparen]
def PlistSyntax.PVal.tokss : List PVal → List PTok
  | [] => []
  | v :: vs => v.toks ++ .comma :: PVal.tokss vs
end

mutual
def PlistSyntax.PProp.toks : PProp → List PTok
  | .prop n vals => .quoted n :: .colon :: PVal.tokss vals ++ [.semicolon]
  | .block n ps => .quoted n :: .lcbrace :: PProp.tokss ps ++ [.rcbrace]
def PlistSyntax.PProp.tokss : List PProp → List PTok
  | [] => []
  | p :: ps => p.toks ++ PProp.tokss ps
end

mutual
theorem pval_values : (v : PVal) → (ts es : _) → Values ts es →
    Values (v.toks ++ ts) (v.expr :: es)
  | .word s, ts, es, h => .word h
  | .quoted s, ts, es, h => .quoted h
  | .call n args, ts, es, h => by
    have := Values.call (s := n) (pvals_values args) h
    simpa [PVal.toks, PVal.expr] using this
theorem pvals_values : (vs : List PVal) → Values (PVal.tokss vs) (PVal.exprs vs)
  | [] => .nil
  | v :: vs => by
    simp only [PVal.tokss, PVal.exprs]
    exact pval_values v _ _ (.comma (pvals_values vs))
end

mutual
theorem pprop_doc : (p : PProp) → (ts es : _) → Doc ts es → Doc (p.toks ++ ts) (p.expr :: es)
  | .prop n vals, ts, es, h => by
    have := Doc.prop (Name.quoted (s := n)) (pvals_values vals) h
    simpa [PProp.toks, PProp.expr] using this
  | .block n ps, ts, es, h => by
    have := Doc.block (Name.quoted (s := n)) (pprops_doc ps) h
    simpa [PProp.toks, PProp.expr] using this
theorem pprops_doc : (ps : List PProp) → Doc (PProp.tokss ps) (PProp.exprs ps)
  | [] => .nil
  | p :: ps => pprop_doc p _ _ (pprops_doc ps)
end

theorem text_tok {t w ts text} (hw : Written t w) (h : Text ts text)
    (hs : ∀ c ∈ text.head?, c ∈ PlistSyntax.special) : Text (t :: ts) (w ++ text) :=
  .tok hw h fun _ => hs

mutual
theorem pval_text : (v : PVal) → v.ok → (ts text : _) → Text ts text →
    (∀ c ∈ text.head?, c ∈ PlistSyntax.special) → Text (v.toks ++ ts) (v.text ++ text)
  | .word s, hv, ts, text, h, hs => text_tok (.str hv.1 hv.2) h hs
  | .quoted s, hv, ts, text, h, hs => text_tok (written_quoted s) h hs
  | .call n args, hv, ts, text, h, hs => by
    have h1 : Text (.rparen :: ts) (')' :: text) := text_tok .rparen h hs
    have h2 := pvals_text args hv.2 _ _ h1 (by simp [PlistSyntax.special])
    have h3 : Text (.lparen :: (PVal.tokss args ++ .rparen :: ts))
        ('(' :: (PVal.texts args ++ ')' :: text)) := .tok .lparen h2 (by simp [isWord])
    have h4 := text_tok (.str hv.1.1 hv.1.2) h3 (by simp [PlistSyntax.special])
    simpa [PVal.toks, PVal.text] using h4
theorem pvals_text : (vs : List PVal) → PVal.oks vs → (ts text : _) → Text ts text →
    (∀ c ∈ text.head?, c ∈ PlistSyntax.special) → Text (PVal.tokss vs ++ ts) (PVal.texts vs ++ text)
  | [], _, ts, text, h, hs => h
  | v :: vs, hv, ts, text, h, hs => by
    have h1 := pvals_text vs hv.2 _ _ h hs
    have h2 : Text (.comma :: (PVal.tokss vs ++ ts)) (',' :: ' ' :: (PVal.texts vs ++ text)) :=
      text_tok .comma (.blank (by simp) h1) (by simp [PlistSyntax.special])
    have h3 := pval_text v hv.1 _ _ h2 (by simp [PlistSyntax.special])
    simpa [PVal.tokss, PVal.texts] using h3
end

mutual
theorem pprop_text : (p : PProp) → p.ok → (ts text : _) → Text ts text →
    Text (p.toks ++ ts) (p.text ++ text)
  | .prop n vals, hp, ts, text, h => by
    have h1 : Text (.semicolon :: ts) (';' :: '\n' :: text) :=
      .tok .semicolon (.blank (by simp) h) (by simp [isWord])
    have h2 := pvals_text vals hp _ _ h1 (by simp [PlistSyntax.special])
    have h3 : Text (.colon :: (PVal.tokss vals ++ .semicolon :: ts))
        (':' :: ' ' :: (PVal.texts vals ++ ';' :: '\n' :: text)) :=
      .tok .colon (.blank (by simp) h2) (by simp [isWord])
    have h4 := Text.tok (written_quoted n) h3 (by simp [isWord])
    simpa [PProp.toks, PProp.text] using h4
  | .block n ps, hp, ts, text, h => by
    have h1 : Text (.rcbrace :: ts) ('}' :: '\n' :: text) :=
      .tok .rcbrace (.blank (by simp) h) (by simp [isWord])
    have h2 := pprops_text ps hp _ _ h1
    have h3 : Text (.lcbrace :: (PProp.tokss ps ++ .rcbrace :: ts))
        ('{' :: '\n' :: (PProp.texts ps ++ '}' :: '\n' :: text)) :=
      .tok .lcbrace (.blank (by simp) h2) (by simp [isWord])
    have h4 := Text.tok (written_quoted n) h3 (by simp [isWord])
    simpa [PProp.toks, PProp.text] using h4
theorem pprops_text : (ps : List PProp) → PProp.oks ps → (ts text : _) → Text ts text →
    Text (PProp.tokss ps ++ ts) (PProp.texts ps ++ text)
  | [], _, ts, text, h => h
  | p :: ps, hp, ts, text, h => by
    have h1 := pprops_text ps hp.2 _ _ h
    have h2 := pprop_text p hp.1 _ _ h1
    simpa [PProp.tokss, PProp.texts] using h2
end

end Clip
