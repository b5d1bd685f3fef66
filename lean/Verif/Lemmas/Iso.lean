import Verif.Lemmas.Time
import Verif.Spec.Iso
/-! # Lemmas: the exact set of texts `ISO8601::parse` reads -/
set_option linter.unusedSimpArgs false
namespace Clip.IsoRead
open Calendar

theorem strAt_end (s : Str) : strAt s s.length = some '\x00' := by simp [strAt]

theorem strAt_end' (s : Str) (i : Nat) (h : i = s.length) : strAt s i = some '\x00' := by
  subst h; exact strAt_end s

theorem isDigitC_iff (c : Char) : isDigitC c = true ↔ ∃ n, n < 10 ∧ c = digit n := by
  constructor
  · intro h
    unfold isDigitC at h
    simp only [Bool.and_eq_true, decide_eq_true_eq, Char.le_def, UInt32.le_iff_toNat_le] at h
    have h0 : ('0' : Char).val.toNat = 48 := rfl
    have h9 : ('9' : Char).val.toNat = 57 := rfl
    rw [h0, h9] at h
    refine ⟨c.toNat - 48, ?_, ?_⟩
    · have : c.toNat = c.val.toNat := rfl
      omega
    · unfold digit
      have : c.toNat = c.val.toNat := rfl
      have e : 48 + (c.toNat - 48) = c.toNat := by omega
      rw [e, Char.ofNat_toNat]
  · rintro ⟨n, h, rfl⟩
    exact digit_isDigit n h

theorem isDigitC_nul : isDigitC '\x00' = false := by decide

theorem two_cases (t : Str) :
    (∃ n, n < 100 ∧ ∃ r, t = two n ++ r) ∨
    (t = [] ∨ (∃ c r, t = c :: r ∧ isDigitC c = false) ∨ (∃ c, t = [c] ∧ isDigitC c = true) ∨
      ∃ c c' r, t = c :: c' :: r ∧ isDigitC c = true ∧ isDigitC c' = false) := by
  match t with
  | [] => exact .inr (.inl rfl)
  | [c] =>
    by_cases h : isDigitC c = true
    · exact .inr (.inr (.inr (.inl ⟨c, rfl, h⟩)))
    · exact .inr (.inr (.inl ⟨c, [], rfl, by simpa using h⟩))
  | c :: c' :: r =>
    by_cases h : isDigitC c = true
    · by_cases h' : isDigitC c' = true
      · obtain ⟨a, ha, rfl⟩ := (isDigitC_iff c).1 h
        obtain ⟨b, hb, rfl⟩ := (isDigitC_iff c').1 h'
        refine .inl ⟨a * 10 + b, by omega, r, ?_⟩
        have e1 : (a * 10 + b) / 10 = a := by omega
        have e2 : (a * 10 + b) % 10 = b := by omega
        simp [two, e1, e2]
      · exact .inr (.inr (.inr (.inr ⟨c, c', r, rfl, h, by simpa using h'⟩)))
    · exact .inr (.inr (.inl ⟨c, _, rfl, by simpa using h⟩))

theorem digitRange_no (p t : Str) (h : ¬ ∃ n, n < 100 ∧ ∃ r, t = two n ++ r) :
    digitRange (p ++ t) p.length 2 = .ok none := by
  rcases two_cases t with h' | rfl | ⟨c, r, rfl, hc⟩ | ⟨c, rfl, hc⟩ | ⟨c, c', r, rfl, hc, hc'⟩
  · exact absurd h' h
  · simp only [List.append_nil, digitRange, strAt_end, isDigitC_nul]; simp
  · simp only [digitRange, strAt_mid, hc]; simp
  · have e := strAt_end' (p ++ [c]) (p.length + 1) (by simp)
    simp only [digitRange, strAt_mid, hc, e, isDigitC_nul]; simp
  · have e := strAt_mid (p ++ [c]) r c'
    simp only [List.append_assoc, List.cons_append, List.nil_append, List.length_append, List.length_cons,
      List.length_nil, Nat.zero_add] at e
    simp only [digitRange, strAt_mid, hc, e, hc']; simp

theorem digitRange_sep_no (p t : Str) (c : Char) (h : ¬ ∃ n, n < 100 ∧ ∃ r, t = two n ++ r) :
    digitRange (p ++ c :: t) (p.length + 1) 2 = .ok none := by
  have := digitRange_no (p ++ [c]) t h
  simpa using this

/-- A separator for which `q` holds and two digits. -/
def Sep (q : Char → Prop) (t : Str) : Prop := ∃ c, q c ∧ ∃ n, n < 100 ∧ ∃ r, t = c :: (two n ++ r)

theorem head_cases (q : Char → Prop) (p t : Str) :
    Sep q t ∨ (t = [] ∨ (∃ c r, t = c :: r ∧ ¬ q c) ∨
      ∃ c r, t = c :: r ∧ q c ∧ ¬ ∃ n, n < 100 ∧ ∃ r', r = two n ++ r') := by
  cases t with
  | nil => exact .inr (.inl rfl)
  | cons c r =>
    by_cases hq : q c
    · by_cases hr : ∃ n, n < 100 ∧ ∃ r', r = two n ++ r'
      · obtain ⟨n, hn, r', rfl⟩ := hr
        exact .inl ⟨c, hq, n, hn, r', rfl⟩
      · exact .inr (.inr (.inr ⟨c, r, rfl, hq, hr⟩))
    · exact .inr (.inr (.inl ⟨c, r, rfl, hq⟩))

theorem parseSecond_no (p t : Str) (d : Civil) (h : ¬ Sep (· = ':') t) :
    parseSecond (p ++ t) p.length d = .ok none := by
  unfold parseSecond
  rcases head_cases (· = ':') p t with h' | rfl | ⟨c, r, rfl, hc⟩ | ⟨c, r, rfl, rfl, hr⟩
  · exact absurd h' h
  · rw [if_pos (by simp)]
  · rw [if_neg (by simp), if_pos (by rw [strAt_mid]; simpa using hc)]
  · rw [if_neg (by simp), if_neg (by rw [strAt_mid]; simp), digitRange_sep_no p r ':' hr]

theorem parseMinute_no (p t : Str) (d : Civil) (h : ¬ Sep (· = ':') t) :
    parseMinute (p ++ t) p.length d = .ok none := by
  unfold parseMinute
  rcases head_cases (· = ':') p t with h' | rfl | ⟨c, r, rfl, hc⟩ | ⟨c, r, rfl, rfl, hr⟩
  · exact absurd h' h
  · rw [if_pos (by simp)]
  · rw [if_neg (by simp), if_pos (by rw [strAt_mid]; simpa using hc)]
  · rw [if_neg (by simp), if_neg (by rw [strAt_mid]; simp), digitRange_sep_no p r ':' hr]

theorem parseHour_no (p t : Str) (d : Civil) (h : ¬ Sep (fun c => c = 'T' ∨ c = 't') t) :
    parseHour (p ++ t) p.length d = .ok none := by
  unfold parseHour
  rcases head_cases (fun c => c = 'T' ∨ c = 't') p t with h' | rfl | ⟨c, r, rfl, hc⟩ | ⟨c, r, rfl, hc, hr⟩
  · exact absurd h' h
  · rw [if_pos (by simp)]
  · rw [if_neg (by simp), if_pos (by rw [strAt_mid]; simpa using hc)]
  · rw [if_neg (by simp), if_neg (by rw [strAt_mid]; simp; tauto), digitRange_sep_no p r c hr]

theorem parseDay_no (p t : Str) (d : Civil) (h : ¬ Sep (· = '-') t) (hu : t ≠ ['-']) :
    parseDay (p ++ t) p.length d = .ok none := by
  unfold parseDay
  rcases head_cases (· = '-') p t with h' | rfl | ⟨c, r, rfl, hc⟩ | ⟨c, r, rfl, rfl, hr⟩
  · exact absurd h' h
  · rw [if_pos (by simp)]
  · rw [if_neg (by simp), if_pos (by rw [strAt_mid]; simpa using hc)]
  · have hl : 1 ≤ r.length := List.length_pos_iff.2 (by rintro rfl; exact hu rfl)
    have e : digitCopy (p ++ '-' :: r) (p.length + 1) 2 = .ok none := by
      unfold digitCopy
      rw [if_pos (by simp; omega), digitRange_sep_no p r '-' hr]
    rw [if_neg (by simp), if_neg (by rw [strAt_mid]; simp), e]

theorem parseDay_short (p : Str) (d : Civil) : parseDay (p ++ ['-']) p.length d = .undefined := by
  unfold parseDay
  rw [if_neg (by simp), if_neg (by rw [strAt_mid]; simp)]
  unfold digitCopy
  rw [if_neg (by simp)]

theorem parseMonth_no (p t : Str) (d : Civil) (h : ¬ Sep (· = '-') t) :
    parseMonth (p ++ t) p.length d = .ok none := by
  unfold parseMonth
  by_cases hl : p.length + 3 > (p ++ t).length
  · rw [if_pos hl]
  · rw [if_neg hl]
    rcases head_cases (· = '-') p t with h' | rfl | ⟨c, r, rfl, hc⟩ | ⟨c, r, rfl, rfl, hr⟩
    · exact absurd h' h
    · simp at hl
    · rw [if_pos (by rw [strAt_mid]; simpa using hc)]
    · have e : digitCopy (p ++ '-' :: r) (p.length + 1) 2 = .ok none := by
        unfold digitCopy
        rw [if_pos (by simp at hl ⊢; omega), digitRange_sep_no p r '-' hr]
      rw [if_neg (by rw [strAt_mid]; simp), e]

theorem digitRange_cons (s : Str) (i n : Nat) (c : Char) (h : strAt s i = some c) :
    digitRange s i (n + 1) = if isDigitC c then
        match digitRange s (i + 1) n with
        | .ok (some cs) => .ok (some (c :: cs))
        | o => o
      else .ok none := by
  rw [digitRange, h]
  rfl

theorem digitRange_result (n : Nat) : ∀ (s : Str) (i : Nat), i + n ≤ s.length →
    digitRange s i n = if ((s.drop i).take n).all isDigitC then .ok (some ((s.drop i).take n)) else .ok none := by
  induction n with
  | zero => intro s i h; simp [digitRange]
  | succ n ih =>
    intro s i h
    have hi : i < s.length := by omega
    have e : strAt s i = some s[i] := by simp [strAt, hi]
    rw [digitRange_cons _ _ _ _ e, ih s (i + 1) (by omega), List.drop_eq_getElem_cons hi, List.take_succ_cons]
    by_cases hc : isDigitC s[i] = true
    · simp only [hc, if_true, List.all_cons, Bool.true_and]
      by_cases ha : ((s.drop (i + 1)).take n).all isDigitC = true
      · rw [if_pos ha]
        simp only [ha, if_true]
      · rw [if_neg ha]
        simp only [ha]
        simp
    · simp [hc]

theorem iso8601_no (s : Str) (h : ¬ ∃ n, n < 10000 ∧ ∃ r, s = four n ++ r) : iso8601Parse s = .ok none := by
  unfold iso8601Parse
  by_cases hl : 4 > s.length
  · rw [if_pos hl]
  · rw [if_neg hl]
    unfold digitCopy
    rw [if_pos (by omega), digitRange_result 4 s 0 (by omega)]
    match s, hl with
    | a :: b :: c :: e :: r, _ =>
      by_cases hd : ([a, b, c, e].all isDigitC) = true
      · simp only [List.all_cons, List.all_nil, Bool.and_true, Bool.and_eq_true] at hd
        obtain ⟨⟨a, ha, rfl⟩, ⟨b, hb, rfl⟩, ⟨c, hc, rfl⟩, ⟨e, he, rfl⟩⟩ :=
          (⟨(isDigitC_iff _).1 hd.1, (isDigitC_iff _).1 hd.2.1, (isDigitC_iff _).1 hd.2.2.1, (isDigitC_iff _).1 hd.2.2.2⟩ :
            (∃ n, n < 10 ∧ a = digit n) ∧ (∃ n, n < 10 ∧ b = digit n) ∧ (∃ n, n < 10 ∧ c = digit n) ∧
              (∃ n, n < 10 ∧ e = digit n))
        refine absurd ⟨a * 1000 + b * 100 + c * 10 + e, by omega, r, ?_⟩ h
        have e1 : (a * 1000 + b * 100 + c * 10 + e) / 1000 = a := by omega
        have e2 : (a * 1000 + b * 100 + c * 10 + e) / 100 % 10 = b := by omega
        have e3 : (a * 1000 + b * 100 + c * 10 + e) / 10 % 10 = c := by omega
        have e4 : (a * 1000 + b * 100 + c * 10 + e) % 10 = e := by omega
        simp [four, e1, e2, e3, e4]
      · simp only [List.drop_zero, List.take_succ_cons, List.take_zero, hd]
        simp
    | [], hl => simp at hl
    | [_], hl => simp at hl
    | [_, _], hl => simp at hl
    | [_, _, _], hl => simp at hl

/-! ## Readings -/

/-- The outcome `o` is a reading `c` exactly when `A c`; otherwise it is the refusal. -/
def Reads (o : Outcome Unit (Option Civil)) (A : Civil → Prop) : Prop :=
  ∃ r, o = .ok r ∧ ∀ c, r = some c ↔ A c

theorem Reads.none {A : Civil → Prop} (h : ∀ c, ¬ A c) : Reads (.ok none) A :=
  ⟨_, rfl, fun c => ⟨fun e => (nomatch e), fun e => absurd e (h c)⟩⟩

theorem Reads.some {A : Civil → Prop} (c : Civil) (h : ∀ c', A c' ↔ c' = c) : Reads (.ok (some c)) A :=
  ⟨_, rfl, fun c' => by rw [h c']; exact ⟨fun e => (Option.some.inj e).symm, fun e => by rw [e]⟩⟩

theorem Reads.congr {o : Outcome Unit (Option Civil)} {A B : Civil → Prop} (h : Reads o A) (e : ∀ c, A c ↔ B c) :
    Reads o B := by
  obtain ⟨r, h1, h2⟩ := h
  exact ⟨r, h1, fun c => (h2 c).trans (e c)⟩

theorem two_inj {n m : Nat} {r r' : Str} (hn : n < 100) (hm : m < 100) (h : two n ++ r = two m ++ r') :
    n = m ∧ r = r' := by
  have e := List.append_inj h rfl
  refine ⟨?_, e.2⟩
  rw [← digitsVal_two n hn, ← digitsVal_two m hm, e.1]

theorem four_inj {n m : Nat} {r r' : Str} (hn : n < 10000) (hm : m < 10000) (h : four n ++ r = four m ++ r') :
    n = m ∧ r = r' := by
  have e := List.append_inj h rfl
  refine ⟨?_, e.2⟩
  rw [← digitsVal_four n hn, ← digitsVal_four m hm, e.1]

/-- What `parseTimeOffset` reads from the rest `t` of a text. -/
theorem reads_zone (p t : Str) (d : Civil) :
    Reads (parseTimeOffset (p ++ t) p.length d) (fun c => ∃ o, ZoneText t o ∧ c = { d with offset := o }) := by
  cases t with
  | nil =>
    unfold parseTimeOffset
    simp only [List.append_nil, strAt_end]
    rw [if_neg (by simp), if_neg (by simp)]
    exact Reads.none (by rintro c ⟨o, h, -⟩; cases h)
  | cons x u =>
    by_cases hz : u = [] ∧ (x = 'z' ∨ x = 'Z')
    · obtain ⟨rfl, hx⟩ := hz
      unfold parseTimeOffset
      simp only [strAt_mid]
      rw [if_pos ⟨by simp, hx⟩]
      refine Reads.some _ (fun c => ?_)
      constructor
      · rintro ⟨o, h, rfl⟩; cases h; rfl
      · rintro rfl; exact ⟨0, .utc x hx.symm, rfl⟩
    have hz' : ¬ (p.length + 1 = (p ++ x :: u).length ∧ (x = 'z' ∨ x = 'Z')) := by
      rintro ⟨h1, h2⟩
      refine hz ⟨?_, h2⟩
      simp only [List.length_append, List.length_cons] at h1
      exact List.length_eq_zero_iff.1 (by omega)
    by_cases hs : x = '+' ∨ x = '-'
    · unfold parseTimeOffset
      simp only [strAt_mid]
      rw [if_neg hz', if_pos hs]
      by_cases hn : ∃ n, n < 100 ∧ ∃ r, u = two n ++ r
      · obtain ⟨n, hn, r, rfl⟩ := hn
        rw [if_neg (by simp [two]), digitRange_sep p r x n hn]
        simp only [digitsVal_two n hn]
        have none_of : (∀ m rest, n ≤ 24 → m ≤ 59 → r ≠ ':' :: (two m ++ rest)) →
            ∀ c, ¬ ∃ o, ZoneText (x :: (two n ++ r)) o ∧ c = { d with offset := o } := by
          rintro H c ⟨o, h, -⟩
          generalize ht : x :: (two n ++ r) = t at h
          cases h with
          | utc c => simp [two] at ht
          | east h m rest h1 h2 =>
            simp only [List.cons.injEq] at ht
            obtain ⟨rfl, rfl⟩ := two_inj hn (by omega) ht.2
            exact H m rest h1 h2 rfl
          | west h m rest h1 h2 =>
            simp only [List.cons.injEq] at ht
            obtain ⟨rfl, rfl⟩ := two_inj hn (by omega) ht.2
            exact H m rest h1 h2 rfl
        by_cases h24 : n ≤ 24
        · rw [if_pos h24]
          by_cases h6 : p.length + 6 > (p ++ x :: (two n ++ r)).length
          · rw [if_pos h6]
            refine Reads.none (none_of ?_)
            rintro m rest - - rfl
            simp [two] at h6
            omega
          · rw [if_neg h6]
            have eq3 : p ++ x :: (two n ++ r) = (p ++ x :: two n) ++ r := by simp
            have len3 : p.length + 3 = (p ++ x :: two n).length := by simp [two]
            have eq3' : strAt (p ++ x :: (two n ++ r)) (p.length + 3) =
                strAt ((p ++ x :: two n) ++ r) (p ++ x :: two n).length := by rw [eq3, len3]
            cases r with
            | nil => simp [two] at h6
            | cons k w =>
              rw [eq3', strAt_mid]
              by_cases hk : k = ':'
              · subst hk
                rw [if_neg (by simp)]
                have eq4 : digitRange (p ++ x :: (two n ++ ':' :: w)) (p.length + 4) 2 =
                    digitRange ((p ++ x :: two n) ++ ':' :: w) ((p ++ x :: two n).length + 1) 2 := by
                  rw [eq3, ← len3]
                rw [eq4]
                by_cases hm : ∃ m, m < 100 ∧ ∃ r, w = two m ++ r
                · obtain ⟨m, hm, rest, rfl⟩ := hm
                  rw [digitRange_sep _ rest ':' m hm]
                  simp only [digitsVal_two m hm]
                  by_cases h59 : m ≤ 59
                  · rw [if_pos h59]
                    refine Reads.some _ (fun c => ?_)
                    constructor
                    · rintro ⟨o, h, rfl⟩
                      generalize ht : x :: (two n ++ ':' :: (two m ++ rest)) = t at h
                      cases h with
                      | utc c => simp [two] at ht
                      | east h m' rest' h1 h2 =>
                        simp only [List.cons.injEq] at ht
                        obtain ⟨rfl, h3⟩ := two_inj hn (by omega) ht.2
                        simp only [List.cons.injEq, true_and] at h3
                        obtain ⟨rfl, -⟩ := two_inj hm (by omega) h3
                        simp [ht.1]
                      | west h m' rest' h1 h2 =>
                        simp only [List.cons.injEq] at ht
                        obtain ⟨rfl, h3⟩ := two_inj hn (by omega) ht.2
                        simp only [List.cons.injEq, true_and] at h3
                        obtain ⟨rfl, -⟩ := two_inj hm (by omega) h3
                        simp [ht.1]
                    · rintro rfl
                      rcases hs with rfl | rfl
                      · exact ⟨_, .east n m rest h24 h59, by simp⟩
                      · exact ⟨_, .west n m rest h24 h59, by simp⟩
                  · rw [if_neg h59]
                    refine Reads.none (none_of ?_)
                    intro m' rest' _ h2 he
                    simp only [List.cons.injEq, true_and] at he
                    obtain ⟨rfl, -⟩ := two_inj hm (by omega) he
                    exact h59 h2
                · rw [digitRange_sep_no _ w ':' hm]
                  refine Reads.none (none_of ?_)
                  intro m' rest' _ h2 he
                  simp only [List.cons.injEq, true_and] at he
                  exact hm ⟨m', by omega, rest', he⟩
              · rw [if_pos (by simpa using hk)]
                refine Reads.none (none_of ?_)
                intro m rest _ _ he
                exact hk (List.cons.inj he).1
        · rw [if_neg h24]
          exact Reads.none (none_of (fun m rest h => absurd h h24))
      · have hA : ∀ c, ¬ ∃ o, ZoneText (x :: u) o ∧ c = { d with offset := o } := by
          rintro c ⟨o, h, -⟩
          cases h with
          | utc c h => exact hz ⟨rfl, h.symm⟩
          | east h m rest h1 h2 => exact hn ⟨h, by omega, _, rfl⟩
          | west h m rest h1 h2 => exact hn ⟨h, by omega, _, rfl⟩
        split
        · exact Reads.none hA
        · rw [digitRange_sep_no p u x hn]
          exact Reads.none hA
    · unfold parseTimeOffset
      simp only [strAt_mid]
      rw [if_neg hz', if_neg hs]
      refine Reads.none ?_
      rintro c ⟨o, h, -⟩
      cases h with
      | utc c h => exact hz ⟨rfl, h.symm⟩
      | east => exact hs (.inl rfl)
      | west => exact hs (.inr rfl)

theorem fracText_ne (ds : List Nat) (h : ds ≠ []) : fracText ds = '.' :: ds.map digit := by
  cases ds with
  | nil => exact absurd rfl h
  | cons a ds => rfl

/-- The digits at the beginning of a text. -/
theorem split_digits (t : Str) : ∃ (ds : List Nat) (r : Str), t = ds.map digit ++ r ∧ (∀ a ∈ ds, a < 10) ∧
    (∀ c r', r = c :: r' → isDigitC c = false) := by
  induction t with
  | nil => exact ⟨[], [], rfl, by simp, by simp⟩
  | cons c t ih =>
    by_cases hc : isDigitC c = true
    · obtain ⟨n, hn, rfl⟩ := (isDigitC_iff c).1 hc
      obtain ⟨ds, r, rfl, h1, h2⟩ := ih
      exact ⟨n :: ds, r, rfl, by simpa using ⟨hn, h1⟩, h2⟩
    · refine ⟨[], c :: t, rfl, by simp, ?_⟩
      intro c' r' e
      cases e
      simpa using hc

theorem zoneText_head {t : Str} {o : Int} (h : ZoneText t o) : ∃ c r, t = c :: r ∧ isDigitC c = false ∧ c ≠ '.' := by
  cases h with
  | utc c h => rcases h with rfl | rfl <;> exact ⟨_, _, rfl, by decide, by decide⟩
  | east => exact ⟨_, _, rfl, by decide, by decide⟩
  | west => exact ⟨_, _, rfl, by decide, by decide⟩

/-- Two ways to split a text into digits and a rest that does not begin with one agree. -/
theorem digits_unique (ds ds' : List Nat) (r r' : Str) (h : ∀ a ∈ ds, a < 10) (h' : ∀ a ∈ ds', a < 10)
    (hr : ∀ c t, r = c :: t → isDigitC c = false) (hr' : ∀ c t, r' = c :: t → isDigitC c = false)
    (e : ds.map digit ++ r = ds'.map digit ++ r') : ds = ds' ∧ r = r' := by
  induction ds generalizing ds' with
  | nil =>
    cases ds' with
    | nil => exact ⟨rfl, e⟩
    | cons a ds' =>
      have := hr (digit a) _ e
      rw [digit_isDigit a (h' a (by simp))] at this
      cases this
  | cons a ds ih =>
    cases ds' with
    | nil =>
      have := hr' (digit a) _ e.symm
      rw [digit_isDigit a (h a (by simp))] at this
      cases this
    | cons b ds' =>
      simp only [List.map_cons, List.cons_append, List.cons.injEq] at e
      obtain ⟨rfl, rfl⟩ := ih ds' (fun x hx => h x (List.mem_cons_of_mem _ hx))
        (fun x hx => h' x (List.mem_cons_of_mem _ hx)) e.2
      have ha := digit_toNat a (h a (by simp))
      have hb := digit_toNat b (h' b (by simp))
      rw [e.1] at ha
      exact ⟨by rw [show a = b by omega], rfl⟩

theorem parseSecondFrac_no (p t : Str) (d : Civil) (h : ∀ r, t ≠ '.' :: r) :
    parseSecondFrac (p ++ t) p.length d = .ok none := by
  unfold parseSecondFrac
  cases t with
  | nil => rw [if_pos (by simp)]
  | cons c r =>
    rw [if_neg (by simp), strAt_mid]
    have : c ≠ '.' := fun e => h r (by rw [e])
    simp only [if_pos this]

theorem parseSecondFrac_digits (p : Str) (ds : List Nat) (r : Str) (d : Civil) (hd : ∀ a ∈ ds, a < 10)
    (hr : ∀ c r', r = c :: r' → isDigitC c = false) :
    parseSecondFrac (p ++ '.' :: (ds.map digit ++ r)) p.length d =
      if ds.length < 1 ∨ ds.length > 3 then .ok none
      else parseTimeOffset ((p ++ '.' :: ds.map digit) ++ r) (p ++ '.' :: ds.map digit).length
        { d with millisecond := fracMillis ds } := by
  have hcd := countDigits_append (p ++ ['.']) (ds.map digit) r
    (by intro x hx; obtain ⟨a, ha, rfl⟩ := List.mem_map.1 hx; exact digit_isDigit a (hd a ha)) hr
  simp only [List.append_assoc, List.cons_append, List.nil_append, List.length_append, List.length_cons,
    List.length_nil, List.length_map, Nat.zero_add] at hcd
  unfold parseSecondFrac
  rw [if_neg (by simp), strAt_mid]
  simp only [ne_eq, not_true_eq_false, if_false, hcd]
  by_cases h3 : ds.length < 1 ∨ ds.length > 3
  · rw [if_pos h3, if_pos h3]
  · rw [if_neg h3, if_neg h3]
    have e1 : ((p ++ '.' :: (ds.map digit ++ r)).drop (p.length + 1)).take ds.length = ds.map digit := by
      have : p ++ '.' :: (ds.map digit ++ r) = (p ++ ['.']) ++ (ds.map digit ++ r) := by simp
      rw [this, List.drop_left' (by simp), List.take_left' (by simp)]
    have e2 : p.length + 1 + ds.length = (p ++ '.' :: ds.map digit).length := by simp; omega
    have e3 : p ++ '.' :: (ds.map digit ++ r) = (p ++ '.' :: ds.map digit) ++ r := by simp
    rw [e1, fracMillis_eq ds hd (by omega) (by omega), e2, e3]

/-- Optional decimals, then a UTC offset. -/
def FracZone (t : Str) (d c : Civil) : Prop :=
  ∃ ds z o, t = fracText ds ++ z ∧ (∀ a ∈ ds, a < 10) ∧ ds.length ≤ 3 ∧ ZoneText z o ∧
    c = { d with millisecond := fracMillis ds, offset := o }

theorem reads_frac (p t : Str) (d : Civil) (hm : d.millisecond = 0) :
    Reads (match parseSecondFrac (p ++ t) p.length d with
      | .ok none => parseTimeOffset (p ++ t) p.length d
      | o => o) (FracZone t d) := by
  by_cases ht : ∃ r, t = '.' :: r
  · obtain ⟨r, rfl⟩ := ht
    have hz : Reads (parseTimeOffset (p ++ '.' :: r) p.length d) (fun _ => False) := by
      refine (reads_zone p _ d).congr (fun c => ?_)
      refine ⟨?_, False.elim⟩
      rintro ⟨o, h, -⟩
      obtain ⟨x, y, e, -, hx⟩ := zoneText_head h
      exact hx (List.cons.inj e).1.symm
    obtain ⟨r0, hr0, hr1⟩ := hz
    have hr0 : parseTimeOffset (p ++ '.' :: r) p.length d = .ok none := by
      rw [hr0]
      cases r0 with
      | none => rfl
      | some c => exact ((hr1 c).1 rfl).elim
    obtain ⟨ds, r, rfl, hd, hr⟩ := split_digits r
    rw [parseSecondFrac_digits p ds r d hd hr]
    by_cases h3 : ds.length < 1 ∨ ds.length > 3
    · rw [if_pos h3]
      simp only [hr0]
      refine Reads.none ?_
      rintro c ⟨ds', z, o, e, h1, h2, hz, -⟩
      obtain ⟨x, y, rfl, hx, hx'⟩ := zoneText_head hz
      by_cases hn : ds' = []
      · subst hn
        exact hx' (List.cons.inj e).1.symm
      · rw [fracText_ne ds' hn] at e
        obtain ⟨rfl, -⟩ := digits_unique ds ds' r (x :: y) hd h1 hr (by rintro c t ⟨⟩; exact hx) (List.cons.inj e).2
        have : 1 ≤ ds.length := List.length_pos_iff.2 hn
        omega
    · rw [if_neg h3]
      have hz := (reads_zone (p ++ '.' :: ds.map digit) r { d with millisecond := fracMillis ds })
      have key : ∀ c, FracZone ('.' :: (ds.map digit ++ r)) d c ↔
          ∃ o, ZoneText r o ∧ c = { d with millisecond := fracMillis ds, offset := o } := by
        intro c
        constructor
        · rintro ⟨ds', z, o, e, h1, h2, hzz, rfl⟩
          obtain ⟨x, y, rfl, hx, hx'⟩ := zoneText_head hzz
          by_cases hn : ds' = []
          · subst hn
            exact absurd (List.cons.inj e).1.symm hx'
          · rw [fracText_ne ds' hn] at e
            obtain ⟨rfl, rfl⟩ := digits_unique ds ds' r (x :: y) hd h1 hr (by rintro c t ⟨⟩; exact hx) (List.cons.inj e).2
            exact ⟨o, hzz, rfl⟩
        · rintro ⟨o, h, rfl⟩
          refine ⟨ds, r, o, ?_, hd, by omega, h, rfl⟩
          rw [fracText_ne ds (by rintro rfl; simp at h3)]
          rfl
      have e4 : p ++ '.' :: (ds.map digit ++ r) = (p ++ '.' :: ds.map digit) ++ r := by simp
      obtain ⟨r1, h1, h2⟩ := hz
      rw [h1]
      cases r1 with
      | none =>
        simp only [hr0]
        refine Reads.none (fun c hc => ?_)
        have := (h2 c).2 ((key c).1 hc)
        cases this
      | some c1 =>
        refine ⟨_, rfl, fun c => ?_⟩
        rw [h2 c, key c]
  · rw [parseSecondFrac_no p t d (fun r e => ht ⟨r, e⟩)]
    refine (reads_zone p t d).congr (fun c => ?_)
    constructor
    · rintro ⟨o, h, rfl⟩
      exact ⟨[], t, o, rfl, by simp, by simp, h, by simp [fracMillis, hm]⟩
    · rintro ⟨ds, z, o, rfl, h1, h2, h, rfl⟩
      by_cases hn : ds = []
      · subst hn
        exact ⟨o, h, by simp [fracMillis, hm]⟩
      · rw [fracText_ne ds hn] at ht
        exact absurd ⟨_, rfl⟩ ht

def SecondTail (t : Str) (d c : Civil) : Prop :=
  ∃ n r, n ≤ 59 ∧ t = ':' :: (two n ++ r) ∧ FracZone r { d with second := n } c

theorem reads_second (p t : Str) (d : Civil) (hm : d.millisecond = 0) :
    Reads (parseSecond (p ++ t) p.length d) (SecondTail t d) := by
  by_cases ht : Sep (· = ':') t
  · obtain ⟨_, rfl, n, hn, r, rfl⟩ := ht
    rw [parseSecond_text p r d n hn]
    by_cases h59 : n ≤ 59
    · rw [if_pos h59]
      have := reads_frac (p ++ ':' :: two n) r { d with second := n } hm
      have l : (p ++ ':' :: two n).length = p.length + 3 := by simp [two]
      have e : (p ++ ':' :: two n) ++ r = p ++ ':' :: (two n ++ r) := by simp
      rw [l, e] at this
      refine this.congr (fun c => ⟨fun h => ⟨n, r, h59, rfl, h⟩, ?_⟩)
      rintro ⟨n', r', h', e', hf⟩
      obtain ⟨rfl, rfl⟩ := two_inj hn (by omega) (List.cons.inj e').2
      exact hf
    · rw [if_neg h59]
      refine Reads.none ?_
      rintro c ⟨n', r', h', e', hf⟩
      obtain ⟨rfl, rfl⟩ := two_inj hn (by omega) (List.cons.inj e').2
      exact h59 h'
  · rw [parseSecond_no p t d ht]
    refine Reads.none ?_
    rintro c ⟨n', r', h', rfl, hf⟩
    exact ht ⟨':', rfl, n', by omega, r', rfl⟩

def MinuteTail (t : Str) (d c : Civil) : Prop :=
  ∃ n r, n ≤ 59 ∧ t = ':' :: (two n ++ r) ∧ SecondTail r { d with minute := n } c

theorem reads_minute (p t : Str) (d : Civil) (hm : d.millisecond = 0) :
    Reads (parseMinute (p ++ t) p.length d) (MinuteTail t d) := by
  by_cases ht : Sep (· = ':') t
  · obtain ⟨_, rfl, n, hn, r, rfl⟩ := ht
    rw [parseMinute_text p r d n hn]
    by_cases h59 : n ≤ 59
    · rw [if_pos h59]
      have := reads_second (p ++ ':' :: two n) r { d with minute := n } hm
      have l : (p ++ ':' :: two n).length = p.length + 3 := by simp [two]
      have e : (p ++ ':' :: two n) ++ r = p ++ ':' :: (two n ++ r) := by simp
      rw [l, e] at this
      refine this.congr (fun c => ⟨fun h => ⟨n, r, h59, rfl, h⟩, ?_⟩)
      rintro ⟨n', r', h', e', hf⟩
      obtain ⟨rfl, rfl⟩ := two_inj hn (by omega) (List.cons.inj e').2
      exact hf
    · rw [if_neg h59]
      refine Reads.none ?_
      rintro c ⟨n', r', h', e', hf⟩
      obtain ⟨rfl, rfl⟩ := two_inj hn (by omega) (List.cons.inj e').2
      exact h59 h'
  · rw [parseMinute_no p t d ht]
    refine Reads.none ?_
    rintro c ⟨n', r', h', rfl, hf⟩
    exact ht ⟨':', rfl, n', by omega, r', rfl⟩

def HourTail (t : Str) (d c : Civil) : Prop :=
  ∃ x n r, (x = 'T' ∨ x = 't') ∧ n ≤ 24 ∧ t = x :: (two n ++ r) ∧ MinuteTail r { d with hour := n } c

theorem reads_hour (p t : Str) (d : Civil) (hm : d.millisecond = 0) :
    Reads (parseHour (p ++ t) p.length d) (HourTail t d) := by
  by_cases ht : Sep (fun c => c = 'T' ∨ c = 't') t
  · obtain ⟨x, hx, n, hn, r, rfl⟩ := ht
    rw [parseHour_text p r d x hx n hn]
    by_cases h24 : n ≤ 24
    · rw [if_pos h24]
      have := reads_minute (p ++ x :: two n) r { d with hour := n } hm
      have l : (p ++ x :: two n).length = p.length + 3 := by simp [two]
      have e : (p ++ x :: two n) ++ r = p ++ x :: (two n ++ r) := by simp
      rw [l, e] at this
      refine this.congr (fun c => ⟨fun h => ⟨x, n, r, hx, h24, rfl, h⟩, ?_⟩)
      rintro ⟨x', n', r', hx', h', e', hf⟩
      obtain ⟨rfl, rfl⟩ := two_inj hn (by omega) (List.cons.inj e').2
      exact hf
    · rw [if_neg h24]
      refine Reads.none ?_
      rintro c ⟨x', n', r', hx', h', e', hf⟩
      obtain ⟨rfl, rfl⟩ := two_inj hn (by omega) (List.cons.inj e').2
      exact h24 h'
  · rw [parseHour_no p t d ht]
    refine Reads.none ?_
    rintro c ⟨x', n', r', hx', h', rfl, hf⟩
    exact ht ⟨x', hx', n', by omega, r', rfl⟩

def DayTail (t : Str) (d c : Civil) : Prop :=
  ∃ n r, (1 ≤ n ∧ n ≤ 31) ∧ t = '-' :: (two n ++ r) ∧
    ((r = [] ∧ c = { d with day := n }) ∨ HourTail r { d with day := n } c)

theorem hourTail_ne {t : Str} {d c : Civil} (h : HourTail t d c) : t ≠ [] := by
  obtain ⟨x, n, r, -, -, rfl, -⟩ := h; simp

theorem reads_day (p t : Str) (d : Civil) (hm : d.millisecond = 0) (hu : t ≠ ['-']) :
    Reads (parseDay (p ++ t) p.length d) (DayTail t d) := by
  by_cases ht : Sep (· = '-') t
  · obtain ⟨_, rfl, n, hn, r, rfl⟩ := ht
    rw [parseDay_text p r d n hn]
    by_cases h31 : 1 ≤ n ∧ n ≤ 31
    · rw [if_pos h31]
      have key : ∀ c, DayTail ('-' :: (two n ++ r)) d c ↔
          ((r = [] ∧ c = { d with day := n }) ∨ HourTail r { d with day := n } c) := by
        intro c
        refine ⟨?_, fun h => ⟨n, r, h31, rfl, h⟩⟩
        rintro ⟨n', r', h', e', hf⟩
        obtain ⟨rfl, rfl⟩ := two_inj hn (by omega) (List.cons.inj e').2
        exact hf
      by_cases hr : r = []
      · subst hr
        rw [if_neg (by simp)]
        refine Reads.some _ (fun c => ?_)
        rw [key c]
        exact ⟨fun h => h.elim (·.2) (fun h => absurd rfl (hourTail_ne h)), fun h => .inl ⟨rfl, h⟩⟩
      · rw [if_pos hr]
        have := reads_hour (p ++ '-' :: two n) r { d with day := n } hm
        have l : (p ++ '-' :: two n).length = p.length + 3 := by simp [two]
        have e : (p ++ '-' :: two n) ++ r = p ++ '-' :: (two n ++ r) := by simp
        rw [l, e] at this
        refine this.congr (fun c => ?_)
        rw [key c]
        exact ⟨.inr, fun h => h.elim (fun h => absurd h.1 hr) id⟩
    · rw [if_neg h31]
      refine Reads.none ?_
      rintro c ⟨n', r', h', e', hf⟩
      obtain ⟨rfl, rfl⟩ := two_inj hn (by omega) (List.cons.inj e').2
      exact h31 h'
  · rw [parseDay_no p t d ht hu]
    refine Reads.none ?_
    rintro c ⟨n', r', h', rfl, hf⟩
    exact ht ⟨'-', rfl, n', by omega, r', rfl⟩

theorem dayTail_ne {t : Str} {d c : Civil} (h : DayTail t d c) : t ≠ [] := by
  obtain ⟨n, r, -, rfl, -⟩ := h; simp

def MonthTail (t : Str) (d c : Civil) : Prop :=
  ∃ n r, (1 ≤ n ∧ n ≤ 12) ∧ t = '-' :: (two n ++ r) ∧
    ((r = [] ∧ c = { d with month := n }) ∨ DayTail r { d with month := n } c)

theorem monthTail_ne {t : Str} {d c : Civil} (h : MonthTail t d c) : t ≠ [] := by
  obtain ⟨n, r, -, rfl, -⟩ := h; simp

/-- The texts on which the parser reads beyond the end. -/
def MonthShort (t : Str) : Prop := ∃ n, (1 ≤ n ∧ n ≤ 12) ∧ t = '-' :: (two n ++ ['-'])

theorem month_short (p t : Str) (d : Civil) (h : MonthShort t) : parseMonth (p ++ t) p.length d = .undefined := by
  obtain ⟨n, hn, rfl⟩ := h
  rw [parseMonth_text p ['-'] d n (by omega), if_pos hn, if_pos (by simp)]
  have := parseDay_short (p ++ '-' :: two n) { d with month := n }
  have l : (p ++ '-' :: two n).length = p.length + 3 := by simp [two]
  have e : (p ++ '-' :: two n) ++ ['-'] = p ++ '-' :: (two n ++ ['-']) := by simp
  rw [l, e] at this
  exact this

theorem reads_month (p t : Str) (d : Civil) (hm : d.millisecond = 0) (hu : ¬ MonthShort t) :
    Reads (parseMonth (p ++ t) p.length d) (MonthTail t d) := by
  by_cases ht : Sep (· = '-') t
  · obtain ⟨_, rfl, n, hn, r, rfl⟩ := ht
    rw [parseMonth_text p r d n hn]
    by_cases h12 : 1 ≤ n ∧ n ≤ 12
    · rw [if_pos h12]
      have key : ∀ c, MonthTail ('-' :: (two n ++ r)) d c ↔
          ((r = [] ∧ c = { d with month := n }) ∨ DayTail r { d with month := n } c) := by
        intro c
        refine ⟨?_, fun h => ⟨n, r, h12, rfl, h⟩⟩
        rintro ⟨n', r', h', e', hf⟩
        obtain ⟨rfl, rfl⟩ := two_inj hn (by omega) (List.cons.inj e').2
        exact hf
      by_cases hr : r = []
      · subst hr
        rw [if_neg (by simp)]
        refine Reads.some _ (fun c => ?_)
        rw [key c]
        exact ⟨fun h => h.elim (·.2) (fun h => absurd rfl (dayTail_ne h)), fun h => .inl ⟨rfl, h⟩⟩
      · rw [if_pos hr]
        have := reads_day (p ++ '-' :: two n) r { d with month := n } hm
          (by rintro rfl; exact hu ⟨n, h12, rfl⟩)
        have l : (p ++ '-' :: two n).length = p.length + 3 := by simp [two]
        have e : (p ++ '-' :: two n) ++ r = p ++ '-' :: (two n ++ r) := by simp
        rw [l, e] at this
        refine this.congr (fun c => ?_)
        rw [key c]
        exact ⟨.inr, fun h => h.elim (fun h => absurd h.1 hr) id⟩
    · rw [if_neg h12]
      refine Reads.none ?_
      rintro c ⟨n', r', h', e', hf⟩
      obtain ⟨rfl, rfl⟩ := two_inj hn (by omega) (List.cons.inj e').2
      exact h12 h'
  · rw [parseMonth_no p t d ht]
    refine Reads.none ?_
    rintro c ⟨n', r', h', rfl, hf⟩
    exact ht ⟨'-', rfl, n', by omega, r', rfl⟩

theorem timeRead_iff (y : Nat) (hy : y < 10000) (r : Str) (c : Civil) :
    TimeRead (four y ++ r) c ↔ ((r = [] ∧ c = { year := y }) ∨ MonthTail r { year := y } c) := by
  have l4 : ∀ n, (four n).length = 4 := fun _ => rfl
  constructor
  · intro h
    generalize hs : four y ++ r = s at h
    cases h with
    | year y' hy' =>
      obtain ⟨rfl, rfl⟩ := four_inj (r' := []) hy hy' (by simpa using hs)
      exact .inl ⟨rfl, rfl⟩
    | month y' mo hy' h1 h2 =>
      obtain ⟨rfl, rfl⟩ := four_inj hy hy' hs
      exact .inr ⟨mo, [], ⟨h1, h2⟩, by simp, .inl ⟨rfl, rfl⟩⟩
    | day y' mo dd hy' h1 h2 h3 h4 =>
      rw [dateText, List.append_assoc] at hs
      obtain ⟨rfl, rfl⟩ := four_inj hy hy' hs
      exact .inr ⟨mo, '-' :: two dd, ⟨h1, h2⟩, by simp, .inr ⟨dd, [], ⟨h3, h4⟩, by simp, .inl ⟨rfl, rfl⟩⟩⟩
    | time y' mo dd h mi s t ds zone off hy' h1 h2 h3 h4 h5 h6 h7 h8 h9 h10 h11 =>
      simp only [dateText, List.append_assoc, List.cons_append] at hs
      obtain ⟨rfl, rfl⟩ := four_inj hy hy' hs
      exact .inr ⟨mo, _, ⟨h1, h2⟩, rfl, .inr ⟨dd, _, ⟨h3, h4⟩, rfl, .inr ⟨t, h, _, h8, h5, rfl, mi, _, h6, rfl,
        s, _, h7, rfl, ds, zone, off, rfl, h9, h10, h11, rfl⟩⟩⟩
  · rintro (⟨rfl, rfl⟩ | ⟨mo, r, ⟨h1, h2⟩, rfl, (⟨rfl, rfl⟩ | ⟨dd, r, ⟨h3, h4⟩, rfl, (⟨rfl, rfl⟩ |
      ⟨t, h, _, h8, h5, rfl, mi, _, h6, rfl, s, _, h7, rfl, ds, zone, off, rfl, h9, h10, h11, rfl⟩)⟩)⟩)
    · rw [List.append_nil]
      exact .year y hy
    · rw [List.append_nil]
      exact .month y mo hy h1 h2
    · have := TimeRead.day y mo dd hy h1 h2 h3 h4
      simpa [dateText] using this
    · have := TimeRead.time y mo dd h mi s t ds zone off hy h1 h2 h3 h4 h5 h6 h7 h8 h9 h10 h11
      simpa [dateText] using this

theorem timeRead_year {s : Str} {c : Civil} (h : TimeRead s c) : ∃ n, n < 10000 ∧ ∃ r, s = four n ++ r := by
  cases h with
  | year y hy => exact ⟨y, hy, [], by simp⟩
  | month y mo hy => exact ⟨y, hy, _, rfl⟩
  | day y mo dd hy => exact ⟨y, hy, '-' :: two mo ++ '-' :: two dd, by simp [dateText]⟩
  | time y mo dd h mi s t ds zone off hy =>
    refine ⟨y, hy, '-' :: two mo ++ ('-' :: two dd ++ t :: (two h ++ ':' :: (two mi ++ ':' :: (two s ++ (fracText ds ++ zone))))), ?_⟩
    simp [dateText]

/-- The texts on which the parser reads beyond the end. -/
def IsoShort (s : Str) : Prop := ∃ y mo, y < 10000 ∧ 1 ≤ mo ∧ mo ≤ 12 ∧ s = four y ++ '-' :: (two mo ++ ['-'])

theorem iso_short (s : Str) (h : IsoShort s) : iso8601Parse s = .undefined := by
  obtain ⟨y, mo, hy, h1, h2, rfl⟩ := h
  rw [iso8601_year _ y hy, if_pos (by simp)]
  exact month_short (four y) _ _ ⟨mo, ⟨h1, h2⟩, rfl⟩

theorem reads_iso (s : Str) (h : ¬ IsoShort s) : Reads (iso8601Parse s) (TimeRead s) := by
  by_cases hs : ∃ n, n < 10000 ∧ ∃ r, s = four n ++ r
  · obtain ⟨y, hy, r, rfl⟩ := hs
    rw [iso8601_year r y hy]
    by_cases hr : r = []
    · subst hr
      rw [if_neg (by simp)]
      refine Reads.some _ (fun c => ?_)
      rw [timeRead_iff y hy]
      exact ⟨fun h => h.elim (·.2) (fun h => absurd rfl (monthTail_ne h)), fun h => .inl ⟨rfl, h⟩⟩
    · rw [if_pos hr]
      refine (reads_month (four y) r { year := y } rfl ?_).congr (fun c => ?_)
      · rintro ⟨n, hn, rfl⟩
        exact h ⟨y, n, hy, hn.1, hn.2, rfl⟩
      · rw [timeRead_iff y hy]
        exact ⟨.inr, fun h => h.elim (fun h => absurd h.1 hr) id⟩
  · rw [iso8601_no s hs]
    exact Reads.none (fun c hc => hs (timeRead_year hc))

end Clip.IsoRead
