import Verif.Model.StringUtil
/-!
# Lemmas about string utilities
-/
set_option linter.unusedSimpArgs false
namespace Clip

theorem findSub_some {p s : Str} {i : Nat} (h : findSub p s = some i) :
    i ≤ s.length ∧ p <+: s.drop i ∧ ∀ j < i, ¬ p <+: s.drop j := by
  induction s generalizing i with
  | nil =>
    simp only [findSub] at h
    split at h
    · rename_i hp; cases h
      exact ⟨by simp, by simpa using hp, by simp⟩
    · cases h
  | cons c s ih =>
    simp only [findSub] at h
    split at h
    · rename_i hp; cases h
      exact ⟨by simp, by simpa using hp, by simp⟩
    · rename_i hp
      cases hf : findSub p s with
      | none => simp [hf] at h
      | some k =>
        simp [hf] at h; subst h
        obtain ⟨h1, h2, h3⟩ := ih hf
        refine ⟨by simp; omega, by simpa using h2, ?_⟩
        intro j hj
        cases j with
        | zero => simpa using hp
        | succ j => simpa using h3 j (by omega)

theorem findSub_none {p s : Str} (h : findSub p s = none) : ∀ j, j ≤ s.length → ¬ p <+: s.drop j := by
  induction s with
  | nil =>
    simp only [findSub] at h
    split at h
    · cases h
    · rename_i hp; intro j hj; simpa using hp
  | cons c s ih =>
    simp only [findSub] at h
    split at h
    · cases h
    · rename_i hp
      intro j hj
      cases j with
      | zero => simpa using hp
      | succ j => simpa using ih (by simpa using h) j (by simpa using hj)

theorem infix_iff_drop {p s : Str} : p <:+: s ↔ ∃ j, j ≤ s.length ∧ p <+: s.drop j := by
  constructor
  · rintro ⟨a, b, rfl⟩
    exact ⟨a.length, by simp, by simp⟩
  · rintro ⟨j, _, h⟩
    exact h.isInfix.trans (List.drop_suffix _ _).isInfix

theorem findSub_eq_none_iff {p s : Str} : findSub p s = none ↔ ¬ p <:+: s := by
  constructor
  · intro h hi
    obtain ⟨j, hj, hp⟩ := infix_iff_drop.1 hi
    exact findSub_none h j hj hp
  · intro h
    cases hf : findSub p s with
    | none => rfl
    | some i =>
      obtain ⟨h1, h2, _⟩ := findSub_some hf
      exact absurd (infix_iff_drop.2 ⟨i, h1, h2⟩) h

theorem findSub_unique {p s : Str} {i : Nat} (h1 : i ≤ s.length) (h2 : p <+: s.drop i)
    (h3 : ∀ j < i, ¬ p <+: s.drop j) : findSub p s = some i := by
  cases hf : findSub p s with
  | none => exact absurd (infix_iff_drop.2 ⟨i, h1, h2⟩) (findSub_eq_none_iff.1 hf)
  | some k =>
    obtain ⟨_, k2, k3⟩ := findSub_some hf
    rcases Nat.lt_trichotomy i k with h | h | h
    · exact absurd h2 (k3 i h)
    · rw [h]
    · exact absurd k2 (h3 k h)

theorem findSub_split {p s : Str} {i : Nat} (h : findSub p s = some i) :
    s = s.take i ++ p ++ s.drop (i + p.length) := by
  obtain ⟨_, ⟨t, ht⟩, _⟩ := findSub_some h
  have : s.drop (i + p.length) = t := by
    rw [← List.drop_drop, ← ht]; simp
  rw [this, List.append_assoc, ht, List.take_append_drop]

/-- The parts of `s` between successive first occurrences of `p`. -/
def splitParts (p s : Str) : List Str :=
  match findSub p s with
  | none => [s]
  | some i =>
    if _h : p ≠ [] ∧ i + p.length ≤ s.length then s.take i :: splitParts p (s.drop (i + p.length)) else []
termination_by s.length
decreasing_by
  have hp' : 0 < p.length := List.length_pos_iff.2 _h.1
  simp; omega

theorem splitParts_none {p s : Str} (hf : findSub p s = none) : splitParts p s = [s] := by
  rw [splitParts, hf]

theorem splitParts_some {p s : Str} {i : Nat} (hp : p ≠ []) (hf : findSub p s = some i) :
    splitParts p s = s.take i :: splitParts p (s.drop (i + p.length)) := by
  obtain ⟨h1, h2, _⟩ := findSub_some hf
  have := h2.length_le
  have h : p ≠ [] ∧ i + p.length ≤ s.length := ⟨hp, by simp at this; omega⟩
  rw [splitParts, hf]
  simp only [dif_pos h]

theorem splitParts_ne_nil {p s : Str} (hp : p ≠ []) : splitParts p s ≠ [] := by
  cases hf : findSub p s with
  | none => rw [splitParts_none hf]; simp
  | some i => rw [splitParts_some hp hf]; simp

theorem intercalate_cons {p a : Str} {l : List Str} (h : l ≠ []) :
    p.intercalate (a :: l) = a ++ p ++ p.intercalate l := by
  cases l with
  | nil => exact absurd rfl h
  | cons b l => simp [List.intercalate, List.intersperse]

theorem intercalate_singleton {p a : Str} : p.intercalate [a] = a := by
  simp [List.intercalate, List.intersperse]

theorem splitParts_join {p s : Str} (hp : p ≠ []) : p.intercalate (splitParts p s) = s := by
  generalize hn : s.length = n
  induction n using Nat.strongRecOn generalizing s with
  | ind n ih =>
    cases hf : findSub p s with
    | none => rw [splitParts_none hf]; exact intercalate_singleton
    | some i =>
      rw [splitParts_some hp hf, intercalate_cons (splitParts_ne_nil hp)]
      have hs := findSub_split hf
      have hl := congrArg List.length hs
      have hp' : 0 < p.length := List.length_pos_iff.2 hp
      obtain ⟨h1, h2, _⟩ := findSub_some hf
      have := h2.length_le
      rw [ih (s.drop (i + p.length)).length (by simp at *; omega) rfl]
      exact hs.symm

theorem splitParts_free {p s : Str} (hp : p ≠ []) : ∀ x ∈ splitParts p s, ¬ p <:+: x := by
  intro x hx
  generalize hn : s.length = n
  induction n using Nat.strongRecOn generalizing s with
  | ind n ih =>
    cases hf : findSub p s with
    | none =>
      rw [splitParts_none hf] at hx
      simp at hx; subst hx
      exact findSub_eq_none_iff.1 hf
    | some i =>
      rw [splitParts_some hp hf] at hx
      have hp' : 0 < p.length := List.length_pos_iff.2 hp
      obtain ⟨h1, h2, h3⟩ := findSub_some hf
      have := h2.length_le
      rcases List.mem_cons.1 hx with rfl | hx
      · intro hi
        obtain ⟨j, hj, hq⟩ := infix_iff_drop.1 hi
        have hl := hq.length_le
        simp at hl hj
        refine h3 j (by omega) ?_
        have : (s.take i).drop j = (s.drop j).take (i - j) := by rw [List.drop_take]
        rw [this] at hq
        exact hq.trans (List.take_prefix _ _)
      · exact ih (s.drop (i + p.length)).length (by simp at *; omega) hx rfl

theorem prefix_append_cases {p a b : Str} (h : p <+: a ++ b) : p <+: a ∨ ∃ t, t ≠ [] ∧ p = a ++ t ∧ t <+: b := by
  obtain ⟨t, ht⟩ := h
  rcases List.append_eq_append_iff.1 ht with ⟨u, h1, h2⟩ | ⟨u, h1, h2⟩
  · exact .inl ⟨u, h1.symm⟩
  · cases u with
    | nil => left; simp at h1; exact ⟨[], by simp [h1]⟩
    | cons c u => exact .inr ⟨c :: u, by simp, h1, ⟨t, h2.symm⟩⟩

/-- The first occurrence of `p` in `x ++ p ++ rest` is behind `x`. -/
theorem findSub_part {p x rest : Str} (hp : p ≠ []) (hx : ¬ p <:+: x ++ p.dropLast) :
    findSub p (x ++ p ++ rest) = some x.length := by
  apply findSub_unique
  · simp
  · simp
  · intro j hj hq
    apply hx
    rw [infix_iff_drop]
    refine ⟨j, by simp; omega, ?_⟩
    have e1 : (x ++ p ++ rest).drop j = (x.drop j ++ p.dropLast) ++ (p.drop (p.length - 1) ++ rest) := by
      have : p = p.dropLast ++ p.drop (p.length - 1) := by
        rw [List.dropLast_eq_take, List.take_append_drop]
      rw [List.append_assoc, List.drop_append_of_le_length (by omega)]
      rw [List.append_assoc, ← List.append_assoc p.dropLast, ← this]
    rw [e1] at hq
    rw [List.drop_append_of_le_length (by omega)]
    have hlen : p.length ≤ (x.drop j ++ p.dropLast).length := by
      have hp' : 0 < p.length := List.length_pos_iff.2 hp
      simp; omega
    exact List.prefix_of_prefix_length_le hq (List.prefix_append _ _) hlen

theorem not_infix_of_append {p x y : Str} (h : ¬ p <:+: x ++ y) : ¬ p <:+: x :=
  fun hi => h (hi.trans (List.prefix_append x y).isInfix)

theorem splitParts_of_parts {p : Str} (hp : p ≠ []) : ∀ {parts : List Str}, parts ≠ [] →
    (∀ x ∈ parts, ¬ p <:+: x ++ p.dropLast) → splitParts p (p.intercalate parts) = parts
  | [], h, _ => absurd rfl h
  | [x], _, hx => by
    rw [intercalate_singleton, splitParts_none (findSub_eq_none_iff.2 (not_infix_of_append (hx x (by simp))))]
  | x :: y :: l, _, hx => by
    rw [intercalate_cons (by simp), splitParts_some hp (findSub_part hp (hx x (by simp)))]
    congr 1
    · simp
    · have : (x ++ p ++ p.intercalate (y :: l)).drop (x.length + p.length) = p.intercalate (y :: l) := by
        rw [List.append_assoc, ← List.drop_drop]; simp
      rw [this]
      exact splitParts_of_parts hp (by simp) (fun z hz => hx z (by simp [hz]))

theorem split_returns {p : Str} (s : Str) (hp : p ≠ []) (b : Nat) (hb : b ≤ s.length) (acc : List Str) :
    Returns (splitStep s p) (b, acc) (acc ++ splitParts p (s.drop b)) := by
  generalize hn : s.length - b = n
  induction n using Nat.strongRecOn generalizing b acc with
  | ind n ih =>
    have hp' : 0 < p.length := List.length_pos_iff.2 hp
    cases hf : findSub p (s.drop b) with
    | none =>
      have : splitParts p (s.drop b) = [s.drop b] := splitParts_none hf
      rw [this]
      exact Returns.of_done (by simp [splitStep, findFrom, hb, hf])
    | some i =>
      obtain ⟨h1, h2, _⟩ := findSub_some hf
      have := h2.length_le
      have e : splitParts p (s.drop b) =
          (s.drop b).take i :: splitParts p ((s.drop b).drop (i + p.length)) := splitParts_some hp hf
      have hstep : splitStep s p (b, acc) = .inl (i + b + p.length, acc ++ [(s.drop b).take i]) := by
        simp [splitStep, findFrom, hb, hf]
      rw [Returns.of_step hstep, e]
      have := ih (s.length - (i + b + p.length)) (by simp at *; omega) (i + b + p.length)
        (by simp at *; omega) (acc ++ [(s.drop b).take i]) rfl
      have e2 : (s.drop b).drop (i + p.length) = s.drop (i + b + p.length) := by
        rw [List.drop_drop]; congr 1; omega
      rw [e2]
      simpa using this

theorem replace_returns {p : Str} (r : Str) (hp : p ≠ []) (pre rest : Str) :
    Returns (replaceStep p r) (pre ++ rest, pre.length) (pre ++ r.intercalate (splitParts p rest)) := by
  generalize hn : rest.length = n
  induction n using Nat.strongRecOn generalizing pre rest with
  | ind n ih =>
    have hp' : 0 < p.length := List.length_pos_iff.2 hp
    cases hf : findSub p rest with
    | none =>
      have : splitParts p rest = [rest] := splitParts_none hf
      rw [this, intercalate_singleton]
      exact Returns.of_done (by simp [replaceStep, findFrom, hf])
    | some i =>
      obtain ⟨h1, h2, _⟩ := findSub_some hf
      have hl := h2.length_le
      have e : splitParts p rest = rest.take i :: splitParts p (rest.drop (i + p.length)) := splitParts_some hp hf
      have hstep : replaceStep p r (pre ++ rest, pre.length) =
          .inl ((pre ++ rest.take i ++ r) ++ rest.drop (i + p.length), (pre ++ rest.take i ++ r).length) := by
        simp only [replaceStep, findFrom]
        simp [hf, strReplace]
        refine ⟨?_, by omega⟩
        rw [List.take_append, List.drop_append]
        have a1 : i + pre.length - pre.length = i := by omega
        have a2 : i + pre.length + p.length - pre.length = i + p.length := by omega
        rw [a1, a2, List.take_of_length_le (by omega), List.drop_of_length_le (by omega)]
        simp
      rw [Returns.of_step hstep, e, intercalate_cons (splitParts_ne_nil hp)]
      have := ih (rest.drop (i + p.length)).length (by simp at *; omega) (pre ++ rest.take i ++ r)
        (rest.drop (i + p.length)) rfl
      simpa using this

/-- An occurrence that shares no character with a separator lies on one side of it. -/
theorem infix_sep {p a r b : Str} (hr : r ≠ []) (hd : ∀ c ∈ r, c ∉ p) (h : p <:+: a ++ r ++ b) :
    p <:+: a ∨ p <:+: b := by
  obtain ⟨c, r, rfl⟩ : ∃ c r', r = c :: r' := by cases r <;> simp_all
  obtain ⟨u, v, huv⟩ := h
  rw [List.append_assoc, List.append_assoc] at huv
  rcases List.append_eq_append_iff.1 huv with ⟨w, h1, h2⟩ | ⟨w, h1, h2⟩
  · -- a = u ++ w, p ++ v = w ++ (c :: r ++ b)
    rcases List.append_eq_append_iff.1 h2 with ⟨x, h3, h4⟩ | ⟨x, h3, h4⟩
    · -- w = p ++ x
      left; exact ⟨u, x, by rw [h1, h3]; simp⟩
    · -- p = w ++ x
      cases x with
      | nil => left; exact ⟨u, [], by simp [h1, h3]⟩
      | cons y x =>
        simp at h4
        exact absurd (by rw [h3]; simp [h4.1]) (hd c (by simp))
  · -- u = a ++ w, (c :: r) ++ b = w ++ (p ++ v)
    have h2' : (c :: r) ++ b = w ++ (p ++ v) := by simpa using h2
    rcases List.append_eq_append_iff.1 h2' with ⟨x, h3, h4⟩ | ⟨x, h3, h4⟩
    · right; exact ⟨x, v, by rw [h4]; simp⟩
    · cases x with
      | nil => right; exact ⟨[], v, by simpa using h4⟩
      | cons y x =>
        cases p with
        | nil => right; exact List.nil_infix
        | cons q p =>
          simp at h4
          have : q ∈ c :: r := by rw [h3]; simp [h4.1]
          exact absurd (by simp) (hd q this)

theorem infix_intercalate {p r : Str} (hr : r ≠ []) (hd : ∀ c ∈ r, c ∉ p) :
    ∀ {l : List Str}, l ≠ [] → p <:+: r.intercalate l → ∃ x ∈ l, p <:+: x
  | [], h, _ => absurd rfl h
  | [x], _, h => ⟨x, by simp, by rwa [intercalate_singleton] at h⟩
  | x :: y :: l, _, h => by
    rw [intercalate_cons (by simp)] at h
    rcases infix_sep hr hd h with h | h
    · exact ⟨x, by simp, h⟩
    · obtain ⟨z, hz, hi⟩ := infix_intercalate hr hd (l := y :: l) (by simp) h
      exact ⟨z, List.mem_cons_of_mem _ hz, hi⟩

theorem joinLoop_eq (sep : Str) : ∀ (l : List Str) (i : Nat) (out : Str), 0 < i →
    joinLoop l sep i out = out ++ (l.map (sep ++ ·)).flatten
  | [], i, out, _ => by simp [joinLoop]
  | x :: l, i, out, h => by
    simp [joinLoop, h, joinLoop_eq sep l (i + 1) _ (by omega)]

theorem joinStr_eq (sep : Str) (l : List Str) : joinStr l sep = sep.intercalate l := by
  have key : ∀ (x : Str) (l : List Str), sep.intercalate (x :: l) = x ++ (l.map (sep ++ ·)).flatten := by
    intro x l
    induction l generalizing x with
    | nil => simp [intercalate_singleton]
    | cons y l ih => rw [intercalate_cons (by simp), ih y]; simp
  cases l with
  | nil => simp [joinStr, joinLoop, List.intercalate]
  | cons x l => rw [key, joinStr, joinLoop, joinLoop_eq sep l 1 _ (by omega)]; simp

theorem stripBack_spec (pred : Char → Bool) (s : Str) :
    stripBack pred s = if s.all pred then none else some (s.reverse.dropWhile pred).reverse := by
  generalize hn : s.length = n
  induction n generalizing s with
  | zero =>
    have : s = [] := List.length_eq_zero_iff.1 hn
    subst this
    rw [stripBack]; simp
  | succ n ih =>
    rcases List.eq_nil_or_concat s with rfl | ⟨t, c, rfl⟩
    · simp at hn
    · rw [List.concat_eq_append] at *
      rw [stripBack]
      split
      · rename_i h; simp at h
      rename_i d h
      have : c = d := by simpa using h
      subst this
      rw [List.dropLast_concat]
      have := ih t (by simpa using hn)
      by_cases hc : pred c = true
      · simp [hc, this]
      · simp [hc]

theorem stripTrailingBytes_spec (b : Char) (s : Str) :
    stripTrailingBytes b s = (s.reverse.dropWhile (· == b)).reverse := by
  generalize hn : s.length = n
  induction n generalizing s with
  | zero =>
    have : s = [] := List.length_eq_zero_iff.1 hn
    subst this
    rw [stripTrailingBytes]; simp
  | succ n ih =>
    rcases List.eq_nil_or_concat s with rfl | ⟨t, c, rfl⟩
    · simp at hn
    · rw [List.concat_eq_append] at *
      rw [stripTrailingBytes]
      split
      · rename_i h; simp at h
      rename_i d h
      have : c = d := by simpa using h
      subst this
      rw [List.dropLast_concat]
      have := ih t (by simpa using hn)
      by_cases hc : c = b
      · simp [hc, this]
      · simp [hc]

theorem ltrim_spec (s : Str) :
    ltrim s = if s.all (· == ' ') then none else some (s.dropWhile (· == ' ')) := by
  induction s with
  | nil => simp [ltrim]
  | cons c s ih =>
    simp only [ltrim]
    by_cases hc : c = ' '
    · simp [hc, ih]
    · simp [hc]

theorem isNumberInt_spec (s : Str) : isNumberInt s =
    if (s.dropWhile cIsDigit) = [] ∨ (s.dropWhile cIsDigit).head? = some '.'
    then some (s.dropWhile cIsDigit) else none := by
  induction s with
  | nil => simp [isNumberInt]
  | cons c s ih =>
    simp only [isNumberInt]
    by_cases h1 : c = '.'
    · subst h1
      have : cIsDigit '.' = false := by decide
      simp [List.dropWhile_cons, this]
    · by_cases h2 : cIsDigit c = true
      · simp [h1, h2, List.dropWhile_cons, ih]
      · simp [h1, h2, List.dropWhile_cons]

theorem findCharLoop_spec (chr : Char) : ∀ (s : Str) (i : Nat),
    findCharLoop chr s i = (s.findIdx? (· == chr)).map (· + i)
  | [], i => by simp [findCharLoop]
  | c :: s, i => by
    simp only [findCharLoop, List.findIdx?_cons]
    by_cases h : c = chr
    · simp [h]
    · simp [h, findCharLoop_spec chr s (i + 1), Option.map_map]
      congr 1
      funext x
      simp; omega

theorem findLastLoop_some {s : Str} {chr : Char} : ∀ {n i : Nat}, findLastLoop s chr n = some i →
    i < n ∧ s[i]? = some chr ∧ ∀ j, i < j → j < n → s[j]? ≠ some chr
  | 0, i, h => by simp [findLastLoop] at h
  | n + 1, i, h => by
    simp only [findLastLoop] at h
    split at h
    · cases h
      rename_i h'
      exact ⟨by omega, h', by intros; omega⟩
    · rename_i h'
      obtain ⟨h1, h2, h3⟩ := findLastLoop_some h
      refine ⟨by omega, h2, ?_⟩
      intro j hj hn
      rcases Nat.lt_or_ge j n with h | h
      · exact h3 j hj h
      · have : j = n := by omega
        subst this; exact h'

theorem findLastLoop_none {s : Str} {chr : Char} : ∀ {n : Nat}, findLastLoop s chr n = none →
    ∀ j < n, s[j]? ≠ some chr
  | 0, _, j, hj => by omega
  | n + 1, h, j, hj => by
    simp only [findLastLoop] at h
    split at h
    · cases h
    · rename_i h'
      rcases Nat.lt_or_ge j n with h'' | h''
      · exact findLastLoop_none h j h''
      · have : j = n := by omega
        subst this; exact h'

end Clip
