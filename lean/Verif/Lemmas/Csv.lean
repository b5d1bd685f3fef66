import Verif.Model.Csv
import Verif.Spec.CsvSyntax
import Mathlib.Tactic.Tauto
set_option linter.unusedSimpArgs false
namespace Clip
open CsvSyntax

theorem strAt_length (pre : Str) : strAt pre pre.length = some '\x00' := by simp [strAt]

theorem strAt_append_cons (pre : Str) (c : Char) (cs : Str) :
    strAt (pre ++ c :: cs) pre.length = some c := by simp [strAt]

theorem strAt_append (pre t rest : Str) (i : Nat) (hi : i = pre.length) (ht : t ≠ []) :
    strAt (pre ++ t ++ rest) i = t.head? := by
  cases t with
  | nil => exact absurd rfl ht
  | cons c cs => subst hi; simp [strAt]

/-- Characters that may follow a field. -/
def Follow (rest : Str) : Prop := rest = [] ∨ ∃ c cs, rest = c :: cs ∧ (c = ',' ∨ c = '\r' ∨ c = '\n')

/-! ## Completeness -/

theorem escLoop_complete (f : Str) : ∀ (pre rest acc : Str), rest.head? ≠ some '"' →
    csvEscLoop (pre ++ escape f ++ '"' :: rest) pre.length acc =
      .ok (pre.length + (escape f).length + 1, acc ++ f) := by
  induction f with
  | nil =>
    intro pre rest acc hr
    rw [csvEscLoop]
    have h1 : strAt (pre ++ escape [] ++ '"' :: rest) pre.length = some '"' := by simp [strAt, escape]
    have hlen : pre.length ≠ (pre ++ escape [] ++ '"' :: rest).length := by simp
    simp only [hlen, dif_neg, not_false_eq_true]
    split
    · simp_all
    · rename_i c hc
      rw [h1] at hc
      cases hc
      have : ¬ (pre.length + 1 ≠ (pre ++ escape [] ++ '"' :: rest).length ∧ '"' = '"' ∧
          strAt (pre ++ escape [] ++ '"' :: rest) (pre.length + 1) = some '"') := by
        rintro ⟨a, -, b⟩
        cases rest with
        | nil => simp [escape] at a
        | cons d ds =>
          have : (pre ++ escape [] ++ '"' :: d :: ds) = (pre ++ ['"']) ++ d :: ds := by simp [escape]
          rw [this, show pre.length + 1 = (pre ++ ['"']).length by simp, strAt_append_cons] at b
          simp_all
      rw [if_neg this]
      simp [escape]
  | cons c cs ih =>
    intro pre rest acc hr
    by_cases hc : c = '"'
    · subst hc
      rw [csvEscLoop]
      have e : pre ++ escape ('"' :: cs) ++ '"' :: rest = (pre ++ ['"', '"']) ++ escape cs ++ '"' :: rest := by
        simp [escape]
      have h1 : strAt (pre ++ escape ('"' :: cs) ++ '"' :: rest) pre.length = some '"' := by
        simp [strAt, escape]
      have h2 : strAt (pre ++ escape ('"' :: cs) ++ '"' :: rest) (pre.length + 1) = some '"' := by
        have : (pre ++ escape ('"' :: cs) ++ '"' :: rest) = (pre ++ ['"']) ++ '"' :: (escape cs ++ '"' :: rest) := by
          simp [escape]
        rw [this, show pre.length + 1 = (pre ++ ['"']).length by simp, strAt_append_cons]
      have hlen : pre.length ≠ (pre ++ escape ('"' :: cs) ++ '"' :: rest).length := by simp
      simp only [hlen, dif_neg, not_false_eq_true]
      split
      · simp_all
      · rename_i c hc
        rw [h1] at hc
        cases hc
        rw [if_pos ⟨by simp [escape], rfl, h2⟩, e, show pre.length + 2 = (pre ++ ['"', '"']).length by simp,
          ih _ _ _ hr]
        simp [escape]
        omega
    · rw [csvEscLoop]
      have e : pre ++ escape (c :: cs) ++ '"' :: rest = (pre ++ [c]) ++ escape cs ++ '"' :: rest := by
        simp [escape, hc]
      have h1 : strAt (pre ++ escape (c :: cs) ++ '"' :: rest) pre.length = some c := by
        simp [strAt, escape, hc]
      have hlen : pre.length ≠ (pre ++ escape (c :: cs) ++ '"' :: rest).length := by simp
      simp only [hlen, dif_neg, not_false_eq_true]
      split
      · simp_all
      · rename_i d hd
        rw [h1] at hd
        cases hd
        rw [if_neg (by simp [hc]), if_neg hc, e, show pre.length + 1 = (pre ++ [c]).length by simp, ih _ _ _ hr]
        simp [escape, hc]
        omega

theorem fieldLiteral_complete (f : Str) : ∀ (pre rest acc : Str),
    (∀ c ∈ f, c ≠ ',' ∧ c ≠ '\r' ∧ c ≠ '\n') → Follow rest →
    csvFieldLiteral (pre ++ f ++ rest) pre.length acc = .ok (pre.length + f.length, acc ++ f) := by
  induction f with
  | nil =>
    intro pre rest acc _ hr
    rw [csvFieldLiteral]
    rcases hr with rfl | ⟨c, cs, rfl, hc⟩
    · simp
    · have hlen : pre.length ≠ (pre ++ [] ++ c :: cs).length := by simp
      simp only [hlen, dif_neg, not_false_eq_true]
      have h1 : strAt (pre ++ [] ++ c :: cs) pre.length = some c := by simp [strAt]
      split
      · simp_all
      · rename_i d hd
        rw [h1] at hd
        cases hd
        rw [if_pos (by tauto)]
        simp
  | cons c cs ih =>
    intro pre rest acc hf hr
    rw [csvFieldLiteral]
    have hc := hf c (by simp)
    have hlen : pre.length ≠ (pre ++ c :: cs ++ rest).length := by simp
    simp only [hlen, dif_neg, not_false_eq_true]
    have h1 : strAt (pre ++ c :: cs ++ rest) pre.length = some c := by simp [strAt]
    split
    · simp_all
    · rename_i d hd
      rw [h1] at hd
      cases hd
      rw [if_neg (by tauto), show pre ++ c :: cs ++ rest = (pre ++ [c]) ++ cs ++ rest by simp,
        show pre.length + 1 = (pre ++ [c]).length by simp, ih _ _ _ (fun d hd => hf d (by simp [hd])) hr]
      simp
      omega

theorem Follow.head {rest : Str} (h : Follow rest) : rest.head? ≠ some '"' := by
  rcases h with rfl | ⟨c, cs, rfl, hc⟩
  · simp
  · rcases hc with rfl | rfl | rfl <;> simp

theorem field_complete {f t : Str} (h : Dialect.Field f t) (pre rest : Str) (hr : Follow rest) :
    csvField (pre ++ t ++ rest) pre.length = .ok (pre.length + t.length, f) := by
  unfold csvField
  cases h with
  | quoted =>
    have h1 : strAt (pre ++ ('"' :: escape f ++ ['"']) ++ rest) pre.length = some '"' := by simp [strAt]
    rw [h1]
    simp only [if_true]
    unfold csvFieldEscaped
    rw [h1]
    simp only [ne_eq, not_true_eq_false, if_false]
    have e : pre ++ ('"' :: escape f ++ ['"']) ++ rest = (pre ++ ['"']) ++ escape f ++ '"' :: rest := by simp
    rw [e, show pre.length + 1 = (pre ++ ['"']).length by simp, escLoop_complete f _ _ _ hr.head]
    simp
    omega
  | bare h hq =>
    have h1 : ∃ c, strAt (pre ++ f ++ rest) pre.length = some c ∧ c ≠ '"' := by
      cases f with
      | cons c cs => exact ⟨c, by simp [strAt], by simpa using hq⟩
      | nil =>
        rcases hr with rfl | ⟨c, cs, rfl, hc⟩
        · exact ⟨'\x00', by simp [strAt], by decide⟩
        · exact ⟨c, by simp [strAt], by rcases hc with rfl | rfl | rfl <;> decide⟩
    obtain ⟨c, h1, hc⟩ := h1
    rw [h1]
    simp only [hc, if_false]
    exact fieldLiteral_complete f pre rest [] h hr

/-- What follows a record: a line break, or the end of the text. -/
def RecEnd (rest : Str) : Prop := rest = [] ∨ ∃ c cs, rest = c :: cs ∧ (c = '\r' ∨ c = '\n')

theorem RecEnd.follow {rest : Str} (h : RecEnd rest) : Follow rest := by
  rcases h with rfl | ⟨c, cs, rfl, hc⟩
  · exact .inl rfl
  · exact .inr ⟨c, cs, rfl, .inr hc⟩

theorem getLast?_append_cons (a : Str) (c : Char) (b : Str) :
    (a ++ c :: b).getLast? = (c :: b).getLast? := by
  rw [List.getLast?_append]
  cases h : (c :: b).getLast? with
  | none => simp at h
  | some x => simp

/-- Reading a complete record. -/
theorem record_complete {r : List Str} {u : Str} (h : Dialect.Row r u) :
    ∀ (pre rest : Str) (acc : List Str) (fuel : Nat), RecEnd rest → (rest = [] → u ≠ []) →
    (rest = [] → u.getLast? ≠ some ',') →
    (u ++ rest).length < fuel →
    csvRecord (pre ++ u ++ rest) fuel pre.length acc = some (.ok (pre.length + u.length, acc ++ r)) := by
  induction h with
  | @one f t hf =>
    intro pre rest acc fuel hr hne _ hfuel
    obtain ⟨fuel, rfl⟩ : ∃ k, fuel = k + 1 := ⟨fuel - 1, by omega⟩
    have hlen : pre.length ≠ (pre ++ t ++ rest).length := by
      have : t ≠ [] ∨ rest ≠ [] := by
        by_cases h : rest = []
        · exact .inl (hne h)
        · exact .inr h
      intro e; simp only [List.length_append] at e
      rcases this with h | h <;> have := List.length_pos_iff.2 h <;> omega
    simp only [csvRecord, hlen, if_false, field_complete hf pre rest hr.follow]
    rcases hr with rfl | ⟨c, cs, rfl, hc⟩
    · simp
    · have e : strAt (pre ++ t ++ c :: cs) (pre.length + t.length) = some c := by
        rw [show pre.length + t.length = (pre ++ t).length by simp, strAt_append_cons]
      rw [e]
      simp only [hc, if_true, ite_self]
  | @cons f t fs ts hf hrow ih =>
    intro pre rest acc fuel hr _ hl hfuel
    obtain ⟨fuel, rfl⟩ : ∃ k, fuel = k + 1 := ⟨fuel - 1, by omega⟩
    have hlen : pre.length ≠ (pre ++ (t ++ ',' :: ts) ++ rest).length := by simp <;> omega
    have e1 : pre ++ (t ++ ',' :: ts) ++ rest = pre ++ t ++ ',' :: (ts ++ rest) := by simp
    have hlen2 : pre.length + t.length ≠ (pre ++ (t ++ ',' :: ts) ++ rest).length := by simp
    have e : strAt (pre ++ (t ++ ',' :: ts) ++ rest) (pre.length + t.length) = some ',' := by
      rw [e1, show pre.length + t.length = (pre ++ t).length by simp, strAt_append_cons]
    have hfld := field_complete hf pre (',' :: (ts ++ rest)) (.inr ⟨_, _, rfl, .inl rfl⟩)
    rw [← e1] at hfld
    simp only [csvRecord, hlen, if_false, hfld, hlen2, e]
    rw [if_neg (by decide), if_pos trivial]
    have e2 : pre ++ (t ++ ',' :: ts) ++ rest = (pre ++ t ++ [',']) ++ ts ++ rest := by simp
    have hts : rest = [] → ts ≠ [] := by
      rintro h rfl
      exact hl h (by simp)
    rw [e2, show pre.length + t.length + 1 = (pre ++ t ++ [',']).length by simp <;> omega,
      ih _ _ _ _ hr hts (by
        intro h
        have := hl h
        rw [getLast?_append_cons] at this
        cases ts with
        | nil => exact absurd rfl (hts h)
        | cons c cs => simpa using this) (by simp at hfuel ⊢; omega)]
    simp
    omega

/-- Reading a record that ends in a dangling comma at the end of the text. -/
theorem record_comma {r : List Str} {u : Str} (h : Dialect.Row r u) :
    ∀ (pre : Str) (acc : List Str) (fuel : Nat), u.length + 1 < fuel →
    csvRecord (pre ++ u ++ [',']) fuel pre.length acc =
      some (.ok (pre.length + u.length + 1, acc ++ r)) := by
  induction h with
  | @one f t hf =>
    intro pre acc fuel hfuel
    obtain ⟨fuel, rfl⟩ : ∃ k, fuel = k + 2 := ⟨fuel - 2, by omega⟩
    have hlen : pre.length ≠ (pre ++ t ++ [',']).length := by simp <;> omega
    have hlen2 : pre.length + t.length ≠ (pre ++ t ++ [',']).length := by simp
    have e : strAt (pre ++ t ++ [',']) (pre.length + t.length) = some ',' := by
      rw [show pre.length + t.length = (pre ++ t).length by simp, strAt_append_cons]
    simp only [csvRecord, hlen, if_false, field_complete hf pre [','] (.inr ⟨_, _, rfl, .inl rfl⟩), hlen2, e]
    rw [if_neg (by decide), if_pos trivial, if_pos (by simp <;> omega)]
  | @cons f t fs ts hf hrow ih =>
    intro pre acc fuel hfuel
    obtain ⟨fuel, rfl⟩ : ∃ k, fuel = k + 1 := ⟨fuel - 1, by omega⟩
    have hlen : pre.length ≠ (pre ++ (t ++ ',' :: ts) ++ [',']).length := by simp <;> omega
    have e1 : pre ++ (t ++ ',' :: ts) ++ [','] = pre ++ t ++ ',' :: (ts ++ [',']) := by simp
    have hlen2 : pre.length + t.length ≠ (pre ++ (t ++ ',' :: ts) ++ [',']).length := by simp
    have e : strAt (pre ++ (t ++ ',' :: ts) ++ [',']) (pre.length + t.length) = some ',' := by
      rw [e1, show pre.length + t.length = (pre ++ t).length by simp, strAt_append_cons]
    have hfld := field_complete hf pre (',' :: (ts ++ [','])) (.inr ⟨_, _, rfl, .inl rfl⟩)
    rw [← e1] at hfld
    simp only [csvRecord, hlen, if_false, hfld, hlen2, e]
    rw [if_neg (by decide), if_pos trivial]
    have e2 : pre ++ (t ++ ',' :: ts) ++ [','] = (pre ++ t ++ [',']) ++ ts ++ [','] := by simp
    rw [e2, show pre.length + t.length + 1 = (pre ++ t ++ [',']).length by simp <;> omega,
      ih _ _ _ (by simp at hfuel ⊢; omega)]
    simp
    omega

/-- Reading terminated lines: the loop gets to the text after them. -/
theorem parse_lines {rs : List (List Str)} {t : Str} (h : Dialect.Lines rs t) :
    ∀ (pre rest : Str) (out : List (List Str)) (fuel : Nat), (t ++ rest).length < fuel →
    ∃ fuel', rest.length < fuel' ∧ csvParseLoop (pre ++ t ++ rest) fuel pre.length out =
      csvParseLoop (pre ++ t ++ rest) fuel' (pre.length + t.length) (out ++ rs) := by
  induction h with
  | nil => intro pre rest out fuel hf; exact ⟨fuel, by simpa using hf, by simp⟩
  | @cons r u e rs ts hrow heol _ ih =>
    intro pre rest out fuel hf
    obtain ⟨fuel, rfl⟩ : ∃ k, fuel = k + 1 := ⟨fuel - 1, by omega⟩
    have hrec : ∀ rest', RecEnd rest' → rest' ≠ [] → (u ++ rest').length < fuel + 1 →
        csvRecord (pre ++ u ++ rest') (fuel + 1) pre.length [] = some (.ok (pre.length + u.length, r)) := by
      intro rest' h1 h2 h3
      have := record_complete hrow pre rest' [] (fuel + 1) h1 (absurd · h2) (absurd · h2) h3
      simpa using this
    cases heol with
    | lf =>
      have e1 : pre ++ (u ++ ['\n'] ++ ts) ++ rest = pre ++ u ++ ('\n' :: (ts ++ rest)) := by simp
      have e2 : pre ++ (u ++ ['\n'] ++ ts) ++ rest = (pre ++ u ++ ['\n']) ++ ts ++ rest := by simp
      have hlen : pre.length ≠ (pre ++ (u ++ ['\n'] ++ ts) ++ rest).length := by simp
      have hlen2 : pre.length + u.length ≠ (pre ++ (u ++ ['\n'] ++ ts) ++ rest).length := by simp
      have hat : strAt (pre ++ (u ++ ['\n'] ++ ts) ++ rest) (pre.length + u.length) = some '\n' := by
        rw [e1, show pre.length + u.length = (pre ++ u).length by simp, strAt_append_cons]
      have hr := hrec ('\n' :: (ts ++ rest)) (.inr ⟨_, _, rfl, .inr rfl⟩) (by simp) (by simp at hf ⊢; omega)
      rw [← e1] at hr
      obtain ⟨fuel', hf', ih⟩ := ih (pre ++ u ++ ['\n']) rest (out ++ [r]) fuel (by simp at hf ⊢; omega)
      refine ⟨fuel', hf', ?_⟩
      rw [csvParseLoop]
      simp only [hlen, if_false, hr, hlen2, hat]
      rw [if_neg (by decide), if_pos trivial]
      rw [← e2] at ih
      rw [show pre.length + u.length + 1 = (pre ++ u ++ ['\n']).length by simp <;> omega, ih]
      simp [Nat.add_assoc, Nat.add_comm, Nat.add_left_comm]
    | crlf =>
      have e1 : pre ++ (u ++ ['\r', '\n'] ++ ts) ++ rest = pre ++ u ++ ('\r' :: '\n' :: (ts ++ rest)) := by simp
      have e2 : pre ++ (u ++ ['\r', '\n'] ++ ts) ++ rest = (pre ++ u ++ ['\r', '\n']) ++ ts ++ rest := by simp
      have e3 : pre ++ (u ++ ['\r', '\n'] ++ ts) ++ rest = (pre ++ u ++ ['\r']) ++ '\n' :: (ts ++ rest) := by simp
      have hlen : pre.length ≠ (pre ++ (u ++ ['\r', '\n'] ++ ts) ++ rest).length := by simp
      have hlen2 : pre.length + u.length ≠ (pre ++ (u ++ ['\r', '\n'] ++ ts) ++ rest).length := by simp
      have hlen3 : pre.length + u.length + 1 ≠ (pre ++ (u ++ ['\r', '\n'] ++ ts) ++ rest).length := by
        simp; omega
      have hat : strAt (pre ++ (u ++ ['\r', '\n'] ++ ts) ++ rest) (pre.length + u.length) = some '\r' := by
        rw [e1, show pre.length + u.length = (pre ++ u).length by simp, strAt_append_cons]
      have hat2 : strAt (pre ++ (u ++ ['\r', '\n'] ++ ts) ++ rest) (pre.length + u.length + 1) = some '\n' := by
        rw [e3, show pre.length + u.length + 1 = (pre ++ u ++ ['\r']).length by simp <;> omega, strAt_append_cons]
      have hr := hrec ('\r' :: '\n' :: (ts ++ rest)) (.inr ⟨_, _, rfl, .inl rfl⟩) (by simp)
        (by simp at hf ⊢; omega)
      rw [← e1] at hr
      obtain ⟨fuel', hf', ih⟩ := ih (pre ++ u ++ ['\r', '\n']) rest (out ++ [r]) fuel (by simp at hf ⊢; omega)
      refine ⟨fuel', hf', ?_⟩
      rw [csvParseLoop]
      simp only [hlen, if_false, hr, hlen2, hat, if_true, hlen3, hat2, ne_eq, not_true_eq_false]
      rw [← e2] at ih
      rw [show pre.length + u.length + 2 = (pre ++ u ++ ['\r', '\n']).length by simp <;> omega, ih]
      simp [Nat.add_assoc, Nat.add_comm, Nat.add_left_comm]

theorem parse_complete {rs : List (List Str)} {t : Str} (h : Dialect.Table rs t) (fuel : Nat)
    (hf : t.length < fuel) : csvParse fuel t = some (.ok rs) := by
  unfold csvParse
  cases h with
  | lines h =>
    obtain ⟨fuel', h1, h2⟩ := parse_lines h [] [] [] fuel (by simpa using hf)
    simp only [List.nil_append, List.append_nil, List.length_nil, Nat.zero_add] at h2
    rw [h2]
    obtain ⟨k, rfl⟩ : ∃ k, fuel' = k + 1 := ⟨fuel' - 1, by omega⟩
    simp [csvParseLoop]
  | @last rs t r u h hrow hne hl =>
    obtain ⟨fuel', h1, h2⟩ := parse_lines h [] u [] fuel (by simpa using hf)
    simp only [List.nil_append, List.append_nil, List.length_nil, Nat.zero_add] at h2
    rw [h2]
    obtain ⟨k, rfl⟩ : ∃ k, fuel' = k + 1 := ⟨fuel' - 1, by omega⟩
    have hr := record_complete hrow t [] [] (k + 1) (.inl rfl) (fun _ => hne) (fun _ => hl) (by simpa using h1)
    simp only [List.nil_append, List.append_nil] at hr
    have hlen : t.length ≠ (t ++ u).length := by
      have := List.length_pos_iff.2 hne
      simp only [List.length_append]; omega
    rw [csvParseLoop]
    simp only [hlen, if_false, hr]
    simp
  | @comma rs t r u h hrow =>
    obtain ⟨fuel', h1, h2⟩ := parse_lines h [] (u ++ [',']) [] fuel (by simpa [Nat.add_assoc] using hf)
    simp only [List.nil_append, List.append_nil, List.length_nil, Nat.zero_add] at h2
    rw [show t ++ u ++ [','] = t ++ (u ++ [',']) by simp, h2]
    obtain ⟨k, rfl⟩ : ∃ k, fuel' = k + 1 := ⟨fuel' - 1, by omega⟩
    have hr := record_comma hrow t [] (k + 1) (by simpa using h1)
    simp only [List.nil_append, List.append_nil] at hr
    have hlen : t.length ≠ (t ++ (u ++ [','])).length := by simp
    rw [show t ++ u ++ [','] = t ++ (u ++ [',']) by simp] at hr
    rw [csvParseLoop]
    simp only [hlen, if_false, hr]
    simp [Nat.add_assoc]

/-! ## What every text looks like to the reader -/

theorem esc_cases (rest : Str) : (∃ g, rest = escape g) ∨
    ∃ g rest', rest = escape g ++ '"' :: rest' ∧ rest'.head? ≠ some '"' := by
  match rest with
  | [] => exact .inl ⟨[], rfl⟩
  | ['"'] => exact .inr ⟨[], [], rfl, by simp⟩
  | c :: cs =>
    by_cases hc : c = '"'
    · subst hc
      match cs with
      | [] => exact .inr ⟨[], [], rfl, by simp⟩
      | d :: ds =>
        by_cases hd : d = '"'
        · subst hd
          rcases esc_cases ds with ⟨g, rfl⟩ | ⟨g, r, rfl, hr⟩
          · exact .inl ⟨'"' :: g, by simp [escape]⟩
          · exact .inr ⟨'"' :: g, r, by simp [escape], hr⟩
        · exact .inr ⟨[], d :: ds, rfl, by simpa using hd⟩
    · rcases esc_cases cs with ⟨g, rfl⟩ | ⟨g, r, rfl, hr⟩
      · exact .inl ⟨c :: g, by simp [escape, hc]⟩
      · exact .inr ⟨c :: g, r, by simp [escape, hc], hr⟩
termination_by rest.length

theorem bare_cases (rest : Str) : ∃ f rest', rest = f ++ rest' ∧
    (∀ c ∈ f, c ≠ ',' ∧ c ≠ '\r' ∧ c ≠ '\n') ∧ Follow rest' := by
  induction rest with
  | nil => exact ⟨[], [], rfl, by simp, .inl rfl⟩
  | cons c cs ih =>
    by_cases hc : c = ',' ∨ c = '\r' ∨ c = '\n'
    · exact ⟨[], c :: cs, rfl, by simp, .inr ⟨c, cs, rfl, hc⟩⟩
    · obtain ⟨f, r, rfl, hf, hr⟩ := ih
      refine ⟨c :: f, r, rfl, ?_, hr⟩
      intro d hd
      rcases List.mem_cons.1 hd with rfl | hd
      · tauto
      · exact hf d hd

theorem escLoop_unterminated (g : Str) : ∀ (pre acc : Str),
    csvEscLoop (pre ++ escape g) pre.length acc = .error (.unterminated (acc ++ g)) := by
  induction g with
  | nil => intro pre acc; rw [csvEscLoop]; simp [escape]
  | cons c cs ih =>
    intro pre acc
    rw [csvEscLoop]
    by_cases hc : c = '"'
    · subst hc
      have e : pre ++ escape ('"' :: cs) = (pre ++ ['"', '"']) ++ escape cs := by simp [escape]
      have h1 : strAt (pre ++ escape ('"' :: cs)) pre.length = some '"' := by simp [strAt, escape]
      have h2 : strAt (pre ++ escape ('"' :: cs)) (pre.length + 1) = some '"' := by
        have : (pre ++ escape ('"' :: cs)) = (pre ++ ['"']) ++ '"' :: escape cs := by simp [escape]
        rw [this, show pre.length + 1 = (pre ++ ['"']).length by simp, strAt_append_cons]
      have hlen : pre.length ≠ (pre ++ escape ('"' :: cs)).length := by simp [escape]
      simp only [hlen, dif_neg, not_false_eq_true]
      split
      · simp_all
      · rename_i c hc
        rw [h1] at hc
        cases hc
        rw [if_pos ⟨by simp [escape], rfl, h2⟩, e, show pre.length + 2 = (pre ++ ['"', '"']).length by simp, ih]
        simp
    · have e : pre ++ escape (c :: cs) = (pre ++ [c]) ++ escape cs := by simp [escape, hc]
      have h1 : strAt (pre ++ escape (c :: cs)) pre.length = some c := by simp [strAt, escape, hc]
      have hlen : pre.length ≠ (pre ++ escape (c :: cs)).length := by simp [escape, hc]
      simp only [hlen, dif_neg, not_false_eq_true]
      split
      · simp_all
      · rename_i d hd
        rw [h1] at hd
        cases hd
        rw [if_neg (by simp [hc]), if_neg hc, e, show pre.length + 1 = (pre ++ [c]).length by simp, ih]
        simp

theorem field_unterminated (g pre : Str) :
    csvField (pre ++ '"' :: escape g) pre.length = .error (.unterminated g) := by
  unfold csvField
  have h1 : strAt (pre ++ '"' :: escape g) pre.length = some '"' := by simp [strAt]
  rw [h1]
  simp only [if_true]
  unfold csvFieldEscaped
  rw [h1]
  simp only [ne_eq, not_true_eq_false, if_false]
  rw [show pre ++ '"' :: escape g = (pre ++ ['"']) ++ escape g by simp,
    show pre.length + 1 = (pre ++ ['"']).length by simp, escLoop_unterminated]
  simp

theorem field_quoted (f pre rest : Str) (hr : rest.head? ≠ some '"') :
    csvField (pre ++ ('"' :: escape f ++ ['"']) ++ rest) pre.length =
      .ok (pre.length + ('"' :: escape f ++ ['"']).length, f) := by
  unfold csvField
  have h1 : strAt (pre ++ ('"' :: escape f ++ ['"']) ++ rest) pre.length = some '"' := by simp [strAt]
  rw [h1]
  simp only [if_true]
  unfold csvFieldEscaped
  rw [h1]
  simp only [ne_eq, not_true_eq_false, if_false]
  have e : pre ++ ('"' :: escape f ++ ['"']) ++ rest = (pre ++ ['"']) ++ escape f ++ '"' :: rest := by simp
  rw [e, show pre.length + 1 = (pre ++ ['"']).length by simp, escLoop_complete f _ _ _ hr]
  simp
  omega

theorem field_cases (rest : Str) :
    (∃ f t rest', Dialect.Field f t ∧ rest = t ++ rest' ∧ Follow rest') ∨
    (∃ g, rest = '"' :: escape g) ∨
    (∃ g c rest', rest = ('"' :: escape g ++ ['"']) ++ c :: rest' ∧ c ≠ '"' ∧ ¬ Follow (c :: rest')) := by
  by_cases hq : ∃ cs, rest = '"' :: cs
  · obtain ⟨cs, rfl⟩ := hq
    rcases esc_cases cs with ⟨g, rfl⟩ | ⟨g, r, rfl, hr⟩
    · exact .inr (.inl ⟨g, rfl⟩)
    · by_cases hf : Follow r
      · exact .inl ⟨g, _, r, .quoted, by simp, hf⟩
      · cases r with
        | nil => exact absurd (.inl rfl) hf
        | cons c r => exact .inr (.inr ⟨g, c, r, by simp, by simpa using hr, hf⟩)
  · obtain ⟨f, r, rfl, hf, hr⟩ := bare_cases rest
    refine .inl ⟨f, f, r, .bare hf ?_, rfl, hr⟩
    cases f with
    | nil => simp
    | cons c cs =>
      intro h
      have : c = '"' := by simpa using h
      subst this
      exact hq ⟨cs ++ r, by simp⟩

/-- One round of the record loop over a field followed by a comma. -/
theorem record_step {f t : Str} (hf : Dialect.Field f t) (pre rest : Str) (acc : List Str) (fuel : Nat) :
    csvRecord (pre ++ t ++ ',' :: rest) (fuel + 1) pre.length acc =
      csvRecord (pre ++ t ++ ',' :: rest) fuel (pre.length + t.length + 1) (acc ++ [f]) := by
  have hlen : pre.length ≠ (pre ++ t ++ ',' :: rest).length := by simp <;> omega
  have hlen2 : pre.length + t.length ≠ (pre ++ t ++ ',' :: rest).length := by simp
  have e : strAt (pre ++ t ++ ',' :: rest) (pre.length + t.length) = some ',' := by
    rw [show pre.length + t.length = (pre ++ t).length by simp, strAt_append_cons]
  rw [csvRecord]
  simp only [hlen, if_false, field_complete hf pre (',' :: rest) (.inr ⟨_, _, rfl, .inl rfl⟩), hlen2, e]
  rw [if_neg (by decide), if_pos trivial]

theorem record_unterminated (g pre : Str) (acc : List Str) (fuel : Nat) :
    csvRecord (pre ++ '"' :: escape g) (fuel + 1) pre.length acc = some (.error (.unterminated g)) := by
  simp only [csvRecord, field_unterminated]
  rw [if_neg (by simp)]

theorem record_separator (g pre : Str) (c : Char) (rest : Str) (acc : List Str) (fuel : Nat) (hq : c ≠ '"')
    (hf : ¬ Follow (c :: rest)) :
    csvRecord (pre ++ ('"' :: escape g ++ ['"']) ++ c :: rest) (fuel + 1) pre.length acc =
      some (.error .separator) := by
  have hc : ¬ (c = '\r' ∨ c = '\n') ∧ c ≠ ',' := by
    constructor
    · intro h; exact hf (.inr ⟨c, rest, rfl, .inr h⟩)
    · intro h; exact hf (.inr ⟨c, rest, rfl, .inl h⟩)
  rw [csvRecord, field_quoted _ _ _ (by simpa using hq)]
  have e : strAt (pre ++ ('"' :: escape g ++ ['"']) ++ c :: rest)
      (pre.length + ('"' :: escape g ++ ['"']).length) = some c := by
    rw [show pre.length + ('"' :: escape g ++ ['"']).length = (pre ++ ('"' :: escape g ++ ['"'])).length by simp,
      strAt_append_cons]
  rw [if_neg (by simp)]
  simp only [e]
  rw [if_neg (by simp), if_neg hc.1, if_neg hc.2]

theorem Dialect.Row.snoc {r : List Str} {u f t : Str} (h : Dialect.Row r u) (hf : Dialect.Field f t) :
    Dialect.Row (r ++ [f]) (u ++ ',' :: t) := by
  induction h with
  | one h => exact .cons h (.one hf)
  | cons h _ ih => rw [List.append_assoc]; exact .cons h ih

theorem row_getLast {r : List Str} {u : Str} (h : Dialect.Row r u) : u ≠ [] →
    (u.getLast? ≠ some ',' ∨ ∃ r' u' f, Dialect.Row r' u' ∧ r = r' ++ [f] ∧ u = u' ++ [',']) := by
  induction h with
  | @one f t hf =>
    intro hne
    left
    cases hf with
    | quoted => simp [List.getLast?_cons]
    | bare hb hq =>
      intro h
      exact (hb ',' (List.mem_of_getLast? h)).1 rfl
  | @cons f t fs ts hf hrow ih =>
    intro _
    by_cases hts : ts = []
    · subst hts
      right
      generalize hq : ([] : Str) = q at hrow
      cases hrow with
      | one h => exact ⟨[f], t, _, .one hf, rfl, rfl⟩
      | cons h h' => simp at hq
    · rcases ih hts with h | ⟨r', u', g, h1, rfl, rfl⟩
      · left
        rw [getLast?_append_cons, List.getLast?_cons]
        intro h'
        apply h
        cases hl : ts.getLast? with
        | none => simp at hl; exact absurd hl hts
        | some x => rw [hl] at h'; simpa using h'
      · exact .inr ⟨f :: r', t ++ ',' :: u', g, .cons hf h1, rfl, by simp⟩

/-- Every remaining text is a record followed by a line break or the end of the text, or it is an error. -/
theorem record_cases (rest : Str) (hne : rest ≠ []) :
    (∃ r u rest', Dialect.Row r u ∧ rest = u ++ rest' ∧ RecEnd rest' ∧ (rest' = [] → u ≠ []) ∧
      (rest' = [] → u.getLast? ≠ some ',')) ∨
    (∃ r u, Dialect.Row r u ∧ rest = u ++ [',']) ∨
    (∃ e, ∀ pre acc fuel, rest.length < fuel →
      csvRecord (pre ++ rest) fuel pre.length acc = some (.error e)) := by
  rcases field_cases rest with ⟨f, t, r', hf, rfl, hfol⟩ | ⟨g, rfl⟩ | ⟨g, c, r', rfl, hq, hfol⟩
  · rcases hfol with rfl | ⟨c, cs, rfl, hc⟩
    · refine .inl ⟨[f], t, [], .one hf, rfl, .inl rfl, by simpa using hne, fun _ => ?_⟩
      rcases row_getLast (.one hf) (by simpa using hne) with h | ⟨r'', u', g, h1, h2, h3⟩
      · exact h
      · have : r'' = [] := by
          cases r'' with
          | nil => rfl
          | cons a b => simp at h2
        subst this; cases h1
    · by_cases hcc : c = ','
      · subst hcc
        by_cases hcs : cs = []
        · subst hcs; exact .inr (.inl ⟨[f], t, .one hf, rfl⟩)
        · rcases record_cases cs hcs with ⟨r, u, r', h1, rfl, h3, h4, h5⟩ | ⟨r, u, h1, rfl⟩ | ⟨e, h⟩
          · refine .inl ⟨f :: r, t ++ ',' :: u, r', .cons hf h1, by simp, h3, by simp, ?_⟩
            intro h
            have a := h5 h
            have b := h4 h
            rw [getLast?_append_cons]
            cases u with
            | nil => exact absurd rfl b
            | cons c cs => simpa using a
          · exact .inr (.inl ⟨f :: r, t ++ ',' :: u, .cons hf h1, by simp⟩)
          · refine .inr (.inr ⟨e, ?_⟩)
            intro pre acc fuel hfuel
            obtain ⟨fuel, rfl⟩ : ∃ k, fuel = k + 1 := ⟨fuel - 1, by omega⟩
            have := record_step hf pre cs acc fuel
            rw [show pre ++ (t ++ ',' :: cs) = pre ++ t ++ ',' :: cs by simp, this,
              show pre ++ t ++ ',' :: cs = (pre ++ t ++ [',']) ++ cs by simp,
              show pre.length + t.length + 1 = (pre ++ t ++ [',']).length by simp <;> omega]
            exact h _ _ _ (by simp at hfuel; omega)
      · exact .inl ⟨[f], t, c :: cs, .one hf, rfl, .inr ⟨c, cs, rfl, by tauto⟩, by simp, by simp⟩
  · refine .inr (.inr ⟨.unterminated g, ?_⟩)
    intro pre acc fuel hfuel
    obtain ⟨fuel, rfl⟩ : ∃ k, fuel = k + 1 := ⟨fuel - 1, by omega⟩
    exact record_unterminated g pre acc fuel
  · refine .inr (.inr ⟨.separator, ?_⟩)
    intro pre acc fuel hfuel
    obtain ⟨fuel, rfl⟩ : ∃ k, fuel = k + 1 := ⟨fuel - 1, by omega⟩
    rw [← List.append_assoc]
    exact record_separator g pre c r' acc fuel hq hfol
termination_by rest.length
decreasing_by simp_all; omega

theorem parse_record_error {pre rest : Str} {e : CsvErr} {fuel : Nat} {out : List (List Str)}
    (hne : rest ≠ []) (h : csvRecord (pre ++ rest) (fuel + 1) pre.length [] = some (.error e)) :
    csvParseLoop (pre ++ rest) (fuel + 1) pre.length out = some (.error e) := by
  have hlen : pre.length ≠ (pre ++ rest).length := by
    have := List.length_pos_iff.2 hne
    simp only [List.length_append]; omega
  rw [csvParseLoop]
  simp only [hlen, if_false, h]

theorem parse_cr_error {r : List Str} {u : Str} (h : Dialect.Row r u) (pre rest : Str) (fuel : Nat)
    (out : List (List Str)) (hr : rest.head? ≠ some '\n') (hf : (u ++ '\r' :: rest).length < fuel + 1) :
    csvParseLoop (pre ++ (u ++ '\r' :: rest)) (fuel + 1) pre.length out = some (.error .carriageReturn) := by
  have hlen : pre.length ≠ (pre ++ u ++ '\r' :: rest).length := by simp <;> omega
  have hlen2 : pre.length + u.length ≠ (pre ++ u ++ '\r' :: rest).length := by simp
  have hat : strAt (pre ++ u ++ '\r' :: rest) (pre.length + u.length) = some '\r' := by
    rw [show pre.length + u.length = (pre ++ u).length by simp, strAt_append_cons]
  rw [← List.append_assoc, csvParseLoop]
  simp only [hlen, if_false,
    record_complete h pre ('\r' :: rest) [] (fuel + 1) (.inr ⟨_, _, rfl, .inl rfl⟩) (by simp) (by simp) hf,
    hlen2, hat, if_true]
  cases rest with
  | nil => rw [if_pos (by simp <;> omega)]
  | cons d ds =>
    have hat2 : strAt (pre ++ u ++ '\r' :: d :: ds) (pre.length + u.length + 1) = some d := by
      rw [show pre ++ u ++ '\r' :: d :: ds = (pre ++ u ++ ['\r']) ++ d :: ds by simp,
        show pre.length + u.length + 1 = (pre ++ u ++ ['\r']).length by simp <;> omega, strAt_append_cons]
    rw [if_neg (by simp <;> omega), hat2]
    simp only []
    rw [if_pos (by simpa using hr)]

/-- Every text is either a table of the dialect or refused with an error. -/
theorem parse_cases (rest : Str) : (∃ rs, Dialect.Table rs rest) ∨
    (∃ e, ∀ pre out fuel, rest.length < fuel →
      csvParseLoop (pre ++ rest) fuel pre.length out = some (.error e)) := by
  by_cases hne : rest = []
  · subst hne; exact .inl ⟨[], .lines .nil⟩
  rcases record_cases rest hne with ⟨r, u, r', h1, rfl, h3, h4, h5⟩ | ⟨r, u, h1, rfl⟩ | ⟨e, h⟩
  · rcases h3 with rfl | ⟨c, cs, rfl, hc⟩
    · exact .inl ⟨[] ++ [r], by simpa using Dialect.Table.last .nil h1 (h4 rfl) (h5 rfl)⟩
    · have key : ∀ eol cs', Eol eol → c :: cs = eol ++ cs' → (∃ rs, Dialect.Table rs (u ++ c :: cs)) ∨
          (∃ e, ∀ pre out fuel, (u ++ c :: cs).length < fuel →
            csvParseLoop (pre ++ (u ++ c :: cs)) fuel pre.length out = some (.error e)) := by
        intro eol cs' heol he
        have hlt : cs'.length < (u ++ c :: cs).length := by
          rw [he]; cases heol <;> simp <;> omega
        rcases parse_cases cs' with ⟨rs, ht⟩ | ⟨e, h⟩
        · left
          rw [he]
          cases ht with
          | lines hl => exact ⟨_, .lines (by simpa using Dialect.Lines.cons h1 heol hl)⟩
          | last hl hr hn hg =>
            rename_i rs t r2 u2
            refine ⟨(r :: rs) ++ [r2], ?_⟩
            have := Dialect.Table.last (Dialect.Lines.cons h1 heol hl) hr hn hg
            simpa using this
          | comma hl hr =>
            rename_i rs t r2 u2
            refine ⟨(r :: rs) ++ [r2], ?_⟩
            have := Dialect.Table.comma (Dialect.Lines.cons h1 heol hl) hr
            simpa using this
        · right
          refine ⟨e, ?_⟩
          intro pre out fuel hfuel
          obtain ⟨fuel', hf', hp⟩ := parse_lines (Dialect.Lines.cons h1 heol .nil) pre cs' out fuel
            (by rw [he] at hfuel; simpa using hfuel)
          rw [he, show pre ++ (u ++ (eol ++ cs')) = pre ++ (u ++ eol ++ []) ++ cs' by simp, hp,
            ← List.length_append]
          exact h _ _ _ hf'
      rcases hc with rfl | rfl
      · by_cases hn : ∃ cs', cs = '\n' :: cs'
        · obtain ⟨cs', rfl⟩ := hn
          exact key ['\r', '\n'] cs' .crlf rfl
        · right
          refine ⟨.carriageReturn, ?_⟩
          intro pre out fuel hfuel
          obtain ⟨fuel, rfl⟩ : ∃ k, fuel = k + 1 := ⟨fuel - 1, by omega⟩
          refine parse_cr_error h1 pre cs fuel out ?_ hfuel
          cases cs with
          | nil => simp
          | cons d ds =>
            intro h
            exact hn ⟨ds, by simpa using h⟩
      · exact key ['\n'] cs .lf rfl
  · exact .inl ⟨[] ++ [r], by simpa using Dialect.Table.comma .nil h1⟩
  · right
    refine ⟨e, ?_⟩
    intro pre out fuel hfuel
    obtain ⟨fuel, rfl⟩ : ∃ k, fuel = k + 1 := ⟨fuel - 1, by omega⟩
    exact parse_record_error hne (h pre [] (fuel + 1) hfuel)
termination_by rest.length

/-! ## RFC 4180 texts are texts of the dialect -/

theorem FieldText.dialect {f t : Str} (h : FieldText f t) : Dialect.Field f t := by
  cases h with
  | quoted => exact .quoted
  | bare h =>
    refine .bare (fun c hc => (h c hc).2) ?_
    cases f with
    | nil => simp
    | cons c cs => simpa using (h c (by simp)).1

theorem RowText.dialect {r : List Str} {u : Str} (h : RowText r u) : Dialect.Row r u := by
  induction h with
  | one h => exact .one (FieldText.dialect h)
  | cons h _ ih => exact .cons (FieldText.dialect h) ih

theorem Lines.dialect {rs : List (List Str)} {t : Str} (h : Lines rs t) : Dialect.Lines rs t := by
  induction h with
  | nil => exact .nil
  | cons h e _ ih => exact .cons (RowText.dialect h) e ih

theorem writeRow_text (f : Str) (fs : List Str) : RowText (f :: fs) (writeRow (f :: fs)) := by
  induction fs generalizing f with
  | nil => exact .one .quoted
  | cons g gs ih => exact .cons .quoted (ih g)

theorem write_text (rs : List (List Str)) (h : ∀ r ∈ rs, r ≠ []) : Lines rs (write rs) := by
  induction rs with
  | nil => exact .nil
  | cons r rs ih =>
    cases r with
    | nil => exact absurd rfl (h [] (by simp))
    | cons f fs => exact .cons (writeRow_text f fs) .crlf (ih fun r hr => h r (by simp [hr]))

/-! ## Reading up to the middle of a line -/

/-- Text of fields that are each followed by a comma. -/
inductive Commas : List Str → Str → Prop
  | nil : Commas [] []
  | cons {f t fs ts} : Dialect.Field f t → Commas fs ts → Commas (f :: fs) (t ++ ',' :: ts)

theorem record_commas {fs : List Str} {q : Str} (h : Commas fs q) : ∀ (pre rest : Str) (acc : List Str)
    (fuel : Nat), (q ++ rest).length < fuel → ∃ fuel', rest.length < fuel' ∧
    csvRecord (pre ++ q ++ rest) fuel pre.length acc =
      csvRecord (pre ++ q ++ rest) fuel' (pre ++ q).length (acc ++ fs) := by
  induction h with
  | nil => intro pre rest acc fuel hf; exact ⟨fuel, by simpa using hf, by simp⟩
  | @cons f t fs ts hf _ ih =>
    intro pre rest acc fuel hfuel
    obtain ⟨fuel, rfl⟩ : ∃ k, fuel = k + 1 := ⟨fuel - 1, by omega⟩
    obtain ⟨fuel', h1, h2⟩ := ih (pre ++ t ++ [',']) rest (acc ++ [f]) fuel (by simp at hfuel ⊢; omega)
    refine ⟨fuel', h1, ?_⟩
    have := record_step hf pre (ts ++ rest) acc fuel
    rw [show pre ++ (t ++ ',' :: ts) ++ rest = pre ++ t ++ ',' :: (ts ++ rest) by simp, this]
    rw [show (pre ++ t ++ [',']) ++ ts ++ rest = pre ++ t ++ ',' :: (ts ++ rest) by simp] at h2
    rw [show pre.length + t.length + 1 = (pre ++ t ++ [',']).length by simp <;> omega, h2]
    simp

end Clip
