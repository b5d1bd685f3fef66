import Mathlib.Tactic.Tauto
import Verif.Lemmas.StringUtil
import Verif.Spec.Text
/-!
# C37, C59-C61: string utilities
-/
set_option linter.unusedSimpArgs false
namespace Clip
open TextSpec

/-- C37: splitting always succeeds for a non-empty delimiter; the parts joined by the delimiter are the text
again, and no part contains the delimiter. -/
theorem C37_split (s p : Str) (hp : p ≠ []) :
    ∃ parts, SplitReturns s p parts ∧ parts ≠ [] ∧ p.intercalate parts = s ∧ ∀ x ∈ parts, ¬ p <:+: x := by
  refine ⟨splitParts p s, ⟨hp, ?_⟩, splitParts_ne_nil hp, splitParts_join hp, splitParts_free hp⟩
  simpa using split_returns s hp 0 (by omega) []

/-- C37: joining parts and splitting again returns the parts, if the delimiter occurs in no part, not even
together with the beginning of the following delimiter. -/
theorem C37_split_join (parts : List Str) (p : Str) (hp : p ≠ []) (hne : parts ≠ [])
    (h : ∀ x ∈ parts, ¬ p <:+: x ++ p.dropLast) : SplitReturns (joinStr parts p) p parts := by
  refine ⟨hp, ?_⟩
  have := split_returns (joinStr parts p) hp 0 (by omega) []
  rw [joinStr_eq] at this ⊢
  rwa [List.drop_zero, splitParts_of_parts hp hne h] at this

/-- C37: in particular for one-character delimiters that occur in no part. -/
theorem C37_split_join_char (parts : List Str) (c : Char) (hne : parts ≠ []) (h : ∀ x ∈ parts, c ∉ x) :
    SplitReturns (joinStr parts [c]) [c] parts := by
  apply C37_split_join parts [c] (by simp) hne
  intro x hx hi
  have : c ∈ x ++ [c].dropLast := hi.subset (by simp)
  exact h x hx (by simpa using this)

example : SplitReturns "a,,b".toList [','] [['a'], [], ['b']] := by
  have := C37_split_join_char [['a'], [], ['b']] ',' (by simp) (by simp)
  simpa [joinStr, joinLoop] using this

/-- C37: for longer delimiters it is not enough that no part contains the delimiter: the parts `"a"`, `""` joined by `"aa"` come back as `""`, `"a"`. -/
theorem C37_split_overlap : ¬ "aa".toList <:+: ['a'] ∧ joinStr [['a'], []] "aa".toList = "aaa".toList ∧
    SplitReturns "aaa".toList "aa".toList [[], ['a']] := by
  refine ⟨?_, by decide, by simp, 3, by decide⟩
  intro h
  have := h.length_le
  simp at this

/-- C37: a joined list is the parts with the separator in between. -/
theorem C37_join (parts : List Str) (sep : Str) : joinStr parts sep = sep.intercalate parts :=
  joinStr_eq sep parts

/-- C37: replacing puts the replacement where splitting cuts, and nothing else changes. -/
theorem C37_replace (s p r : Str) (hp : p ≠ []) (parts : List Str) (h : SplitReturns s p parts) :
    ReplaceAllReturns s p r (r.intercalate parts) := by
  have h1 : parts = splitParts p s := by
    have := split_returns s hp 0 (by omega) []
    exact Returns.unique h.2 (by simpa using this)
  subst h1
  unfold ReplaceAllReturns
  split
  · rename_i h0
    have : s = [] := List.length_eq_zero_iff.1 h0
    subst this
    have : findSub p [] = none := by
      simp [findSub]; exact fun h => absurd h hp
    rw [splitParts_none this, intercalate_singleton]
  · simpa using replace_returns r hp [] s

/-- C37: afterwards no occurrence of the pattern is left, if the replacement is not empty and shares no character
with the pattern. -/
theorem C37_replace_gone (s p r out : Str) (hp : p ≠ []) (hr : r ≠ []) (hd : ∀ c ∈ r, c ∉ p)
    (h : ReplaceAllReturns s p r out) : ¬ p <:+: out := by
  obtain ⟨parts, h1, h2, h3, h4⟩ := C37_split s p hp
  have h5 := C37_replace s p r hp parts h1
  have : out = r.intercalate parts := by
    unfold ReplaceAllReturns at h h5
    split at h
    · rename_i h0
      rw [if_pos h0] at h5
      rw [h, h5]
    · rename_i h0
      rw [if_neg h0] at h5
      exact h.unique h5
  subst this
  intro hi
  obtain ⟨x, hx, hix⟩ := infix_intercalate hr hd h2 hi
  exact h4 x hx hix

/-- C37: removing a pattern (empty replacement) may leave the pattern in the text. -/
theorem C37_replace_empty_recreates : ReplaceAllReturns "aabb".toList "ab".toList [] "ab".toList := by
  show Returns _ _ _
  exact ⟨3, by decide⟩

/-- C37 (violated by the code): replacing an empty pattern never finishes. -/
theorem C37_replace_empty_pattern (s r : Str) (hs : s ≠ []) : ReplaceAllDiverges s [] r := by
  unfold ReplaceAllDiverges
  rw [if_neg (by simpa using hs)]
  apply Diverges.of_invariant (fun st : Str × Nat => st.2 ≤ st.1.length)
  · rintro ⟨t, n⟩ hn
    have hf : ∀ u : Str, findSub [] u = some 0 := by intro u; cases u <;> simp [findSub]
    refine ⟨(strReplace t n 0 r, n + r.length), ?_, ?_⟩
    · simp only [] at hn
      simp [replaceStep, findFrom, hn, hf]
    · simp only [] at hn ⊢
      simp [strReplace]; omega
  · simp

example : ("ab".toList : Str) ≠ [] := by simp

/-- C37: prefix and suffix tests are the mathematical ones. -/
theorem C37_prefix_suffix (s t : Str) :
    (beginsWith s t = true ↔ t <+: s) ∧ (endsWith s t = true ↔ t <:+ s) ∧
    (includesStr s t = true ↔ t <:+: s) := by
  refine ⟨?_, ?_, ?_⟩
  · unfold beginsWith
    split
    · rename_i h
      simp
      intro hp
      have := hp.length_le
      omega
    · rw [List.prefix_iff_eq_take, beq_iff_eq]
      exact eq_comm
  · unfold endsWith
    split
    · rename_i h
      simp
      intro hp
      have := hp.length_le
      omega
    · rename_i h
      rw [List.suffix_iff_eq_drop]
      have : (s.drop (s.length - t.length)).take t.length = s.drop (s.length - t.length) := by
        apply List.take_of_length_le; simp; omega
      rw [this, beq_iff_eq]
      exact eq_comm
  · unfold includesStr findFrom
    simp
    rw [Option.isSome_iff_ne_none, ne_eq, findSub_eq_none_iff, Classical.not_not]

/-- C37: the ordering is the lexicographic order of the bytes. -/
theorem C37_compare (s t : Str) :
    (compareStr s t = -1 ↔ s < t) ∧ (compareStr s t = 0 ↔ s = t) ∧ (compareStr s t = 1 ↔ t < s) := by
  induction s generalizing t with
  | nil => cases t <;> simp [compareStr]
  | cons a s ih =>
    cases t with
    | nil => simp [compareStr]
    | cons b t =>
      simp only [compareStr]
      by_cases h : a = b
      · subst h
        simp [List.cons_lt_cons_iff, ih t]
      · have hn : a < b ∨ b < a := by
          rcases Nat.lt_trichotomy a.toNat b.toNat with h' | h' | h'
          · exact .inl h'
          · exact absurd (Char.toNat_inj.1 h') h
          · exact .inr h'
        have hasym : ∀ {x y : Char}, x < y → ¬ y < x := fun {x y} h1 h2 => Nat.lt_asymm h1 h2
        simp [h, Ne.symm h, List.cons_lt_cons_iff]
        rcases hn with h1 | h1
        · simp [h1, hasym h1, Ne.symm h]
        · simp [h1, hasym h1, Ne.symm h, (show b ≤ a from Nat.le_of_lt h1)]

/-- C37: searching for a character finds its first or last position. -/
theorem C37_find (s : Str) (c : Char) :
    findChar s c = s.findIdx? (· == c) ∧
    (∀ i, findLast s c = some i ↔ s[i]? = some c ∧ ∀ j, i < j → s[j]? ≠ some c) ∧
    (findLast s c = none ↔ c ∉ s) := by
  refine ⟨by simp [findChar, findCharLoop_spec], ?_, ?_⟩
  · intro i
    constructor
    · intro h
      obtain ⟨h1, h2, h3⟩ := findLastLoop_some h
      refine ⟨h2, fun j hj => ?_⟩
      rcases Nat.lt_or_ge j s.length with h' | h'
      · exact h3 j hj h'
      · simp [List.getElem?_eq_none h']
    · rintro ⟨h1, h2⟩
      cases hf : findLast s c with
      | none =>
        have hi : i < s.length := by
          rcases Nat.lt_or_ge i s.length with h' | h'
          · exact h'
          · simp [List.getElem?_eq_none h'] at h1
        exact absurd h1 (findLastLoop_none hf i hi)
      | some k =>
        obtain ⟨k1, k2, k3⟩ := findLastLoop_some hf
        rcases Nat.lt_trichotomy i k with h | h | h
        · exact absurd k2 (h2 k h)
        · rw [h]
        · have hi : i < s.length := by
            rcases Nat.lt_or_ge i s.length with h' | h'
            · exact h'
            · simp [List.getElem?_eq_none h'] at h1
          exact absurd h1 (k3 i h hi)
  · constructor
    · intro h hm
      obtain ⟨i, hi, he⟩ := List.mem_iff_getElem.1 hm
      exact findLastLoop_none h i hi (by simp [List.getElem?_eq_getElem hi, he])
    · intro h
      cases hf : findLast s c with
      | none => rfl
      | some k => exact absurd (List.mem_of_getElem? (findLastLoop_some hf).2.1) h

/-- C59: trimming removes exactly the blanks at the respective end, for every text that has another
character. -/
theorem C59_trim_partial (s : Str) (h : ∃ c ∈ s, c ≠ ' ') :
    (∃ n t, ltrim s = some t ∧ s = List.replicate n ' ' ++ t ∧ t.head? ≠ some ' ') ∧
    (∃ n t, rtrim s = some t ∧ s = t ++ List.replicate n ' ' ∧ t.getLast? ≠ some ' ') := by
  have key : ∀ s : Str, (∃ c ∈ s, c ≠ ' ') → ∃ n, s = List.replicate n ' ' ++ s.dropWhile (· == ' ') ∧
      (s.dropWhile (· == ' ')).head? ≠ some ' ' ∧ s.all (· == ' ') = false := by
    intro s h
    induction s with
    | nil => simp at h
    | cons c s ih =>
      by_cases hc : c = ' '
      · subst hc
        obtain ⟨n, h1, h2, h3⟩ := ih (by simpa using h)
        refine ⟨n + 1, ?_, ?_, ?_⟩
        · simp [List.replicate_succ, List.dropWhile_cons]
          exact h1
        · simpa [List.dropWhile_cons] using h2
        · simpa using h3
      · exact ⟨0, by simp [List.dropWhile_cons, hc], by simp [List.dropWhile_cons, hc], by simp [hc]⟩
  constructor
  · obtain ⟨n, h1, h2, h3⟩ := key s h
    exact ⟨n, _, by rw [ltrim_spec, h3]; simp, h1, h2⟩
  · obtain ⟨n, h1, h2, h3⟩ := key s.reverse (by simpa using h)
    refine ⟨n, (s.reverse.dropWhile (· == ' ')).reverse, ?_, ?_, ?_⟩
    · rw [rtrim, stripBack_spec]
      have : s.all (· == ' ') = false := by rw [← h3]; simp
      rw [this]; simp
    · have := congrArg List.reverse h1
      simpa using this
    · simpa using h2

/-- C59 (violated by the code): trimming a blank or empty text, removing the line end of an empty line, or joining
paths one of which is empty or `/`, is undefined behaviour. -/
theorem C59_trim_undefined (n : Nat) :
    ltrim (List.replicate n ' ') = none ∧ rtrim (List.replicate n ' ') = none ∧
    stripTrailingSlashes (List.replicate n '/') = none ∧ chomp (List.replicate n '\n') = none ∧
    (∀ p, joinPaths (List.replicate n '/') p = none) ∧ (∀ p, joinPaths p (List.replicate n '/') = none) := by
  have hs : stripTrailingSlashes (List.replicate n '/') = none := by
    rw [stripTrailingSlashes, stripBack_spec]; simp
  refine ⟨by rw [ltrim_spec]; simp, by rw [rtrim, stripBack_spec]; simp, hs,
    by rw [chomp, stripBack_spec]; simp, ?_, ?_⟩
  · intro p; simp [joinPaths, hs]
  · intro p; simp [joinPaths, hs]

/-- C59: removing the line end of a line that has another character removes exactly the line feeds and carriage
returns at its end; removing slashes likewise. -/
theorem C59_chomp_partial (s : Str) (c : Char) (t : Str) (hc : c ≠ '\n') (hc' : c ≠ '\r')
    (ht : ∀ x ∈ t, x = '\n' ∨ x = '\r') : chomp (s ++ c :: t) = some (s ++ [c]) := by
  rw [chomp, stripBack_spec]
  have h1 : (s ++ c :: t).all (fun c => c == '\n' || c == '\r') = false := by simp [hc, hc']
  rw [h1]
  have h2 : ∀ (r u : Str), (∀ x ∈ r, x = '\n' ∨ x = '\r') →
      List.dropWhile (fun c => c == '\n' || c == '\r') (r ++ c :: u) = c :: u := by
    intro r
    induction r with
    | nil => intro u _; simp [hc, hc']
    | cons x r ih =>
      intro u h
      have hx := h x (by simp)
      rw [List.cons_append, List.dropWhile_cons, if_pos (by simpa using hx)]
      exact ih u fun y hy => h y (by simp [hy])
  simp only [List.reverse_append, List.reverse_cons, List.append_assoc, List.singleton_append]
  simp [h2 t.reverse s.reverse (by simpa using ht)]

example : chomp "ab\r\n".toList = some "ab".toList :=
  C59_chomp_partial ['a'] 'b' ['\r', '\n'] (by decide) (by decide) (by simp)

/-- C59: paths are joined by exactly one slash. -/
theorem C59_join_paths_partial (a b : Str) (n m : Nat) (ha : a ≠ []) (hb : b ≠ []) (ha' : a.getLast? ≠ some '/')
    (hb' : b.getLast? ≠ some '/') :
    joinPaths (a ++ List.replicate n '/') (b ++ List.replicate m '/') = some (a ++ ['/'] ++ b) := by
  have key : ∀ (a : Str) (n : Nat), a ≠ [] → a.getLast? ≠ some '/' →
      stripTrailingSlashes (a ++ List.replicate n '/') = some a := by
    intro a n ha ha'
    rcases List.eq_nil_or_concat a with rfl | ⟨t, c, rfl⟩
    · exact absurd rfl ha
    · rw [List.concat_eq_append] at *
      have hc : ¬ c = '/' := by simpa using ha'
      rw [stripTrailingSlashes, stripBack_spec]
      have : ∀ n, List.dropWhile (fun c => c == '/') (List.replicate n '/' ++ c :: t.reverse) =
          c :: t.reverse := by
        intro n
        induction n with
        | zero => simp [List.dropWhile_cons, hc]
        | succ n ih => simp [List.replicate_succ, List.dropWhile_cons, ih]
      simp [this, hc]
  simp [joinPaths, key a n ha ha', key b m hb hb']

example : joinPaths "a/".toList "b/c".toList = some "a/b/c".toList := by
  have := C59_join_paths_partial ['a'] ['b', '/', 'c'] 1 0 (by simp) (by simp) (by simp) (by simp)
  simpa using this

/-- C59: stripping bytes from a buffer is always defined. -/
theorem C59_strip_bytes (s : Str) (b : Char) : ∃ n, s = stripTrailingBytes b s ++ List.replicate n b ∧
    (stripTrailingBytes b s).getLast? ≠ some b := by
  rw [stripTrailingBytes_spec]
  have key : ∀ s : Str, ∃ n, s = List.replicate n b ++ s.dropWhile (· == b) ∧
      (s.dropWhile (· == b)).head? ≠ some b := by
    intro s
    induction s with
    | nil => exact ⟨0, by simp⟩
    | cons c s ih =>
      by_cases hc : c = b
      · subst hc
        obtain ⟨n, h1, h2⟩ := ih
        refine ⟨n + 1, ?_, ?_⟩
        · simp [List.replicate_succ, List.dropWhile_cons]
          exact h1
        · simpa [List.dropWhile_cons] using h2
      · exact ⟨0, by simp [List.dropWhile_cons, hc], by simp [List.dropWhile_cons, hc]⟩
  obtain ⟨n, h1, h2⟩ := key s.reverse
  refine ⟨n, ?_, by simpa using h2⟩
  have := congrArg List.reverse h1
  simpa using this

theorem cIsDigit_iff (c : Char) : cIsDigit c = true ↔ Digit c := by simp [cIsDigit, Digit]

/-- C60: the texts accepted as numbers: an optional minus, any digits and optionally a point and any digits. -/
theorem C60_is_number (s : Str) : isNumber s = true ↔
    ∃ sign int frac, s = sign ++ int ++ frac ∧ (sign = [] ∨ sign = ['-']) ∧ (∀ c ∈ int, Digit c) ∧
      (frac = [] ∨ ∃ ds, (∀ c ∈ ds, Digit c) ∧ frac = '.' :: ds) := by
  have hd : ∀ (int frac : Str), (∀ c ∈ int, Digit c) → (frac = [] ∨ frac.head? = some '.') →
      (int ++ frac).dropWhile cIsDigit = frac := by
    intro int frac hi hf
    induction int with
    | nil =>
      rcases hf with rfl | hf
      · simp
      · cases frac with
        | nil => simp
        | cons c f =>
          simp at hf; subst hf
          have : cIsDigit '.' = false := by decide
          simp [List.dropWhile_cons, this]
    | cons c int ih =>
      have := (cIsDigit_iff c).2 (hi c (by simp))
      simp [List.dropWhile_cons, this]
      exact ih fun d hd => hi d (by simp [hd])
  have core : ∀ t : Str, isNumberBody t = true ↔
      ∃ int frac, t = int ++ frac ∧ (∀ c ∈ int, Digit c) ∧
        (frac = [] ∨ ∃ ds, (∀ c ∈ ds, Digit c) ∧ frac = '.' :: ds) := by
    intro t
    unfold isNumberBody isNumberFrac
    rw [isNumberInt_spec]
    constructor
    · intro h
      refine ⟨t.takeWhile cIsDigit, t.dropWhile cIsDigit, (List.takeWhile_append_dropWhile).symm, ?_, ?_⟩
      · intro c hc
        exact (cIsDigit_iff c).1 (List.all_eq_true.1 List.all_takeWhile c hc)
      · cases hdw : t.dropWhile cIsDigit with
        | nil => exact .inl rfl
        | cons c u =>
          rw [hdw] at h
          by_cases hc : c = '.'
          · subst hc
            right
            refine ⟨u, ?_, rfl⟩
            simp at h
            exact fun c hc => (cIsDigit_iff c).1 (h c hc)
          · simp [hc] at h
    · rintro ⟨int, frac, rfl, hi, hf⟩
      rw [hd int frac hi (by rcases hf with rfl | ⟨ds, _, rfl⟩ <;> simp)]
      rcases hf with rfl | ⟨ds, hds, rfl⟩
      · simp
      · simp
        exact fun c hc => (cIsDigit_iff c).2 (hds c hc)
  have hm : ¬ Digit '-' := by simp [Digit]
  unfold isNumber
  split
  · rename_i t
    refine (core t).trans ?_
    constructor
    · rintro ⟨int, frac, rfl, h⟩
      exact ⟨['-'], int, frac, by simp, by simp, h⟩
    · rintro ⟨sign, int, frac, he, hs, hi, hf⟩
      rcases hs with rfl | rfl
      · simp at he
        cases int with
        | nil =>
          rcases hf with rfl | ⟨ds, _, rfl⟩
          · simp at he
          · simp at he
        | cons c int =>
          simp at he
          exact absurd (hi c (by simp)) (by rw [← he.1]; exact hm)
      · simp at he
        exact ⟨int, frac, he, hi, hf⟩
  · rename_i t hne
    refine (core _).trans ?_
    constructor
    · rintro ⟨int, frac, he, h⟩
      exact ⟨[], int, frac, by simpa using he, by simp, h⟩
    · rintro ⟨sign, int, frac, he, hs, h⟩
      rcases hs with rfl | rfl
      · exact ⟨int, frac, by simpa using he, h⟩
      · simp at he
        exact absurd he (hne _)

/-- C60: every decimal number is accepted. -/
theorem C60_decimal_accepted (s : Str) (h : Decimal s) : isNumber s = true := by
  obtain ⟨sign, int, frac, h1, h2, _, h4, h5⟩ := h
  refine (C60_is_number s).2 ⟨sign, int, frac, h1, h2, h4, ?_⟩
  rcases h5 with h | ⟨ds, _, h, h'⟩
  · exact .inl h
  · exact .inr ⟨ds, h, h'⟩

example : Decimal "-12.5".toList :=
  ⟨['-'], ['1', '2'], ['.', '5'], by decide, by simp, by simp, by simp [Digit],
    .inr ⟨['5'], by simp, by simp [Digit], rfl⟩⟩

/-- C60 (violated by the code): the empty text, `-`, `.` and `-.` pass for numbers although they have no digits,
and numbers in scientific notation or with a plus sign are refused. -/
theorem C60_not_numbers_accepted :
    (∀ s ∈ [[], ['-'], ['.'], ['-', '.']], isNumber s = true ∧ ¬ Decimal s) ∧
    isNumber "1e5".toList = false ∧ isNumber "+1".toList = false := by
  refine ⟨?_, by decide, by decide⟩
  intro s hs
  refine ⟨by simp at hs; rcases hs with rfl | rfl | rfl | rfl <;> decide, ?_⟩
  rintro ⟨sign, int, frac, h1, h2, h3, h4, h5⟩
  cases int with
  | nil => exact h3 rfl
  | cons c int =>
    have hc := h4 c (by simp)
    have hm : c ∈ s := by rw [h1]; simp
    have : c = '-' ∨ c = '.' := by
      simp only [List.mem_cons, List.not_mem_nil, or_false] at hs
      rcases hs with h | h | h | h <;> rw [h] at hm <;> simp only [List.mem_cons, List.not_mem_nil, or_false] at hm
      · exact .inl hm
      · exact .inr hm
      · exact hm
    rcases this with rfl | rfl <;> simp [Digit] at hc

/-- C60: printed floating point numbers lose only redundant zeros behind the point. -/
theorem C60_strip_zeros (int ds : Str) (hi : int ≠ []) (hd : ds ≠ []) (hds : ∀ c ∈ ds, Digit c) :
    ∃ n ds', stripZeros (int ++ '.' :: ds) = int ++ '.' :: ds' ∧ ds = ds' ++ List.replicate n '0' ∧
      ds' ≠ [] ∧ (ds' = ['0'] ∨ ds'.getLast? ≠ some '0') := by
  generalize hn : ds.length = n
  induction n generalizing ds with
  | zero => exact absurd (List.length_eq_zero_iff.1 hn) hd
  | succ n ih =>
    rcases List.eq_nil_or_concat ds with rfl | ⟨t, c, rfl⟩
    · exact absurd rfl hd
    rw [List.concat_eq_append] at *
    have hi' : 0 < int.length := List.length_pos_iff.2 hi
    have hl : 2 < (int ++ '.' :: (t ++ [c])).length := by simp; omega
    have e1 : (int ++ '.' :: (t ++ [c]))[(int ++ '.' :: (t ++ [c])).length - 1] = c := by
      have : int ++ '.' :: (t ++ [c]) = (int ++ '.' :: t) ++ [c] := by simp
      simp only [this, List.length_append, List.length_singleton, Nat.add_sub_cancel]
      exact List.getElem_concat_length (by simp) _
    rw [stripZeros]
    rw [dif_pos hl]
    by_cases hc : c = '0'
    · subst hc
      have hcases : t = [] ∨ ∃ a t', t = a :: t' := by cases t <;> simp
      rcases hcases with ht | ⟨a, t', ht⟩
      · subst ht
        refine ⟨0, ['0'], ?_, by simp, by simp, by simp⟩
        rw [if_neg]
        · simp
        · rintro ⟨_, h⟩
          apply h
          have : int ++ '.' :: ([] ++ ['0']) = int ++ ['.', '0'] := by simp
          simp only [this]
          simp [List.getElem_append]
      · obtain ⟨k, ds', h1, h2, h3, h4⟩ := ih t (by simp [ht]) (fun c hc => hds c (by simp [hc]))
          (by simpa using hn)
        refine ⟨k + 1, ds', ?_, ?_, h3, h4⟩
        · rw [if_pos]
          · have : (int ++ '.' :: (t ++ ['0'])).dropLast = int ++ '.' :: t := by
              have : int ++ '.' :: (t ++ ['0']) = (int ++ '.' :: t) ++ ['0'] := by simp
              rw [this, List.dropLast_concat]
            rw [this]; exact h1
          · subst ht
            refine ⟨e1, ?_⟩
            intro h
            have e2 : (int ++ '.' :: (a :: t' ++ ['0'])) = (int ++ ['.']) ++ ((a :: t') ++ ['0']) := by simp
            simp only [e2] at h
            rw [List.getElem_append_right (by simp; omega)] at h
            rw [List.getElem_append_left (by simp; omega)] at h
            have := hds '.' (by rw [← h]; exact List.mem_append_left _ (List.getElem_mem _))
            simp [Digit] at this
        · rw [h2, List.append_assoc]
          congr 1
          rw [List.replicate_succ']
    · refine ⟨0, t ++ [c], ?_, by simp, by simp, .inr (by simpa using hc)⟩
      rw [if_neg]
      rw [e1]
      exact fun h => hc h.1

example : stripZeros "1.500000".toList = "1.5".toList := by
  simp [stripZeros]

/-- C61: a hex dump can be read back. -/
theorem C61_hex_print (data : List UInt8) (sep : Bool) :
    readHex (hexPrint data sep false) = some data ∧ readHex (hexPrint data sep true) = some data.reverse := by
  have hdig : ∀ n < 16, hexVal (hexDigit n) = some n ∧ hexDigit n ≠ ' ' := by decide
  have hbyte : ∀ b : UInt8, (b.toNat &&& 0xf0) >>> 4 = b.toNat / 16 ∧ b.toNat &&& 0x0f = b.toNat % 16 := by
    intro b
    have hb := b.toNat_lt
    constructor
    · have h2 : b.toNat &&& 0xf0 = (b.toNat / 16) * 16 := by
        have : b.toNat = b.toBitVec.toNat := rfl
        have e : (b.toBitVec &&& 0xf0#8) = (b.toBitVec >>> 4) <<< 4 := by
          generalize b.toBitVec = v
          ext i hi
          simp
          have : i = 0 ∨ i = 1 ∨ i = 2 ∨ i = 3 ∨ i = 4 ∨ i = 5 ∨ i = 6 ∨ i = 7 := by omega
          rcases this with rfl | rfl | rfl | rfl | rfl | rfl | rfl | rfl <;> simp <;> decide
        have e2 := congrArg BitVec.toNat e
        simp [Nat.shiftRight_eq_div_pow, Nat.shiftLeft_eq] at e2
        omega
      rw [h2, Nat.shiftRight_eq_div_pow]; omega
    · exact Nat.and_two_pow_sub_one_eq_mod b.toNat 4
  have key : ∀ (l : List UInt8) (first : Bool), readHex (hexPrintLoop sep l first) = some l := by
    intro l
    induction l with
    | nil => intro first; simp [hexPrintLoop, readHex]
    | cons b l ih =>
      intro first
      have hb := b.toNat_lt
      have h1 := hdig (b.toNat / 16) (by omega)
      have h2 := hdig (b.toNat % 16) (by omega)
      have hsp : ∀ t : Str, readHex ((if sep && !first then [' '] else []) ++ t) = readHex t := by
        intro t; split <;> simp [readHex]
      simp only [hexPrintLoop, (hbyte b).1, (hbyte b).2, List.append_assoc]
      rw [hsp]
      simp only [List.cons_append, List.nil_append]
      rw [readHex]
      · have : 16 * (b.toNat / 16) + b.toNat % 16 = b.toNat := by omega
        simp only [h1.1, h2.1, ih, this]
        simp
      · exact fun h => h1.2 h
  constructor
  · exact key data true
  · exact key data.reverse true

example : hexPrint [0x0f, 0xa0] true false = "0f a0".toList := by decide

/-- C61: a hexadecimal text is one in which every character is a hexadecimal digit. -/
theorem C61_is_hex (s : Str) : isHexString s = true ↔ ∀ c ∈ s, (TextSpec.hexVal c).isSome := by
  rw [isHexString, List.all_eq_true]
  refine forall₂_congr fun c _ => ?_
  unfold TextSpec.hexVal
  by_cases h1 : '0' ≤ c ∧ c ≤ '9'
  · simp [h1]
  · by_cases h2 : 'a' ≤ c ∧ c ≤ 'f'
    · simp [h1, h2]
    · by_cases h3 : 'A' ≤ c ∧ c ≤ 'F'
      · simp [h1, h2, h3]
      · rw [if_neg h1, if_neg h2, if_neg h3]
        simp only [Bool.or_eq_true, Bool.and_eq_true, decide_eq_true_eq, Option.isSome_none, Bool.false_eq_true,
          iff_false]
        tauto

/-- C61: stripping unsafe characters yields a shell-safe text, keeps the order and leaves safe texts
unchanged. -/
theorem C61_strip_shell (s : Str) : isShellSafe (stripShell s) = true ∧ (stripShell s).Sublist s ∧
    (isShellSafe s = true → stripShell s = s) := by
  have e : (fun c => isAlphanumeric c || c == '_' || c == '-' || c == '.') = isShellSafeChar := by
    funext c; simp [isAlphanumeric, isShellSafeChar]
  unfold stripShell isShellSafe
  rw [e]
  refine ⟨by simp, List.filter_sublist, ?_⟩
  intro h
  exact List.filter_eq_self.2 (List.all_eq_true.1 h)

end Clip
