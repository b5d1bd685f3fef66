import Verif.Spec.ReadDates
import Verif.Model.Strptime
import Verif.Props.Dates
import Mathlib.Tactic.IntervalCases
/-! # C123: dates can be read back -/
set_option linter.unusedSimpArgs false
namespace Clip.ReadDates
open Calendar Dates

theorem digit_digit : ∀ n < 10, isDigitC (digit n) = true ∧ (digit n).toNat - 48 = n ∧ digit n ≠ ' ' ∧ isSpaceTm (digit n) = false ∧ digit n ≠ '\x00' := by decide

theorem number_two {lo hi : Nat} (n : Nat) (h1 : lo ≤ n) (h2 : n ≤ hi) (h : n < 100) (more : Str) :
    getNumber lo hi 2 (two n ++ more) = some (n, more) := by
  obtain ⟨a1, a2, a3, _⟩ := digit_digit (n / 10) (by omega)
  obtain ⟨b1, b2, b3, _⟩ := digit_digit (n % 10) (by omega)
  have e : n / 10 * 10 + n % 10 = n := by omega
  have g : n / 10 * 10 ≤ hi := by omega
  have c : ¬ (n < lo ∨ hi < n) := by omega
  have d : (digit (n / 10) == ' ') = false := by simpa using a3
  simp only [two, getNumber, List.cons_append, List.nil_append, List.dropWhile_cons, d, if_neg, Bool.false_eq_true, if_false, a1,
    if_true, getDigits, a2, b1, b2, g, and_self, e, c]

theorem number_four (n : Nat) (h : n ≤ 9999) (more : Str) : getNumber 0 9999 4 (four n ++ more) = some (n, more) := by
  obtain ⟨a1, a2, a3, _⟩ := digit_digit (n / 1000) (by omega)
  obtain ⟨b1, b2, b3, _⟩ := digit_digit (n / 100 % 10) (by omega)
  obtain ⟨c1, c2, c3, _⟩ := digit_digit (n / 10 % 10) (by omega)
  obtain ⟨d1, d2, d3, _⟩ := digit_digit (n % 10) (by omega)
  have e : ((n / 1000 * 10 + n / 100 % 10) * 10 + n / 10 % 10) * 10 + n % 10 = n := by omega
  have g1 : n / 1000 * 10 ≤ 9999 := by omega
  have g2 : (n / 1000 * 10 + n / 100 % 10) * 10 ≤ 9999 := by omega
  have g3 : ((n / 1000 * 10 + n / 100 % 10) * 10 + n / 10 % 10) * 10 ≤ 9999 := by omega
  have c : ¬ (n < 0 ∨ 9999 < n) := by omega
  have d : (digit (n / 1000) == ' ') = false := by simpa using a3
  simp only [four, getNumber, List.cons_append, List.nil_append, List.dropWhile_cons, d, if_neg, Bool.false_eq_true, if_false, a1,
    if_true, getDigits, a2, b1, b2, c1, c2, d1, d2, g1, g2, g3, and_self, e, c]

/-- The members set by the parts a format mentions. -/
def upd (i : Instant) : List Char → Tm → Tm
  | [], t => t
  | k :: ks, t => upd i ks (
    if k = 'Y' then { t with year := some i.date.year }
    else if k = 'm' then { t with month := some i.date.month }
    else if k = 'd' then { t with day := some i.date.day }
    else if k = 'H' then { t with hour := some i.hour }
    else if k = 'M' then { t with minute := some i.minute }
    else if k = 'S' then { t with second := some i.second }
    else t)

theorem drop_two (n : Nat) (h : n < 100) (more : Str) : (two n ++ more).dropWhile isSpaceTm = two n ++ more := by
  obtain ⟨_, _, _, a, _⟩ := digit_digit (n / 10) (by omega)
  simp [two, a]

theorem drop_four (n : Nat) (h : n < 10000) (more : Str) : (four n ++ more).dropWhile isSpaceTm = four n ++ more := by
  obtain ⟨_, _, _, a, _⟩ := digit_digit (n / 1000) (by omega)
  simp [four, a]

theorem take_all {s : Str} (h : ∀ c ∈ s, c ≠ '\x00') : s.takeWhile (· ≠ '\x00') = s := by
  induction s with
  | nil => rfl
  | cons c s ih =>
    have := h c (by simp)
    simp only [List.takeWhile_cons, this, ne_eq, not_false_eq_true, decide_true, if_true]
    rw [ih fun x hx => h x (by simp [hx])]

theorem sum_bound (l : List Nat) (k : Nat) (h : ∀ x ∈ l, x ≤ k) : l.sum ≤ l.length * k := by
  induction l with
  | nil => simp
  | cons a l ih =>
    have h1 := h a (by simp)
    have h2 := ih fun x hx => h x (by simp [hx])
    simp only [List.sum_cons, List.length_cons, Nat.add_mul, Nat.one_mul]
    omega

theorem number_bound (d : Date) (hy : d.year ≤ 9999) (hm : d.month ≤ 12) (hd : d.day ≤ 31) : dayNumber d < 100000000 := by
  have h1 : yearDays d.year ≤ (d.year - 1970) * 366 := by
    have := sum_bound ((List.range' 1970 (d.year - 1970)).map fun i => 365 + (if isLeapYear i then 1 else 0)) 366 (by
      intro x hx
      obtain ⟨j, _, rfl⟩ := List.mem_map.1 hx
      split <;> omega)
    simpa [yearDays] using this
  have h2 : monthDays d.year d.month ≤ (d.month - 1) * 31 := by
    have := sum_bound ((List.range' 1 (d.month - 1)).map fun i => daysInMonth d.year i) 31 (by
      intro x hx
      obtain ⟨j, _, rfl⟩ := List.mem_map.1 hx
      unfold daysInMonth
      split_ifs <;> omega)
    simpa [monthDays] using this
  unfold dayNumber
  omega

/-- 253402300800 is the first second of the year 10000. -/
theorem year_bound {i : Instant} {t : ℤ} (hi : Since t i) (ht : t < 253402300800) : i.date.year ≤ 9999 := by
  obtain ⟨hh, hm, hs, n, hd, e⟩ := hi
  by_contra hcon
  have h1 := dayNumber_afterEpoch n
  rw [← hd] at h1
  have mono : ∀ k, yearDays 10000 ≤ yearDays (10000 + k) := by
    intro k
    induction k with
    | zero => exact le_rfl
    | succ k ih =>
      have := yearDays_succ (10000 + k) (by omega)
      have e : 10000 + (k + 1) = 10000 + k + 1 := by omega
      rw [e, this]; omega
  have h2 := mono (i.date.year - 10000)
  have e2 : 10000 + (i.date.year - 10000) = i.date.year := by omega
  rw [e2] at h2
  have h3 : yearDays 10000 = 2932897 := by decide +kernel
  unfold dayNumber at h1
  omega

theorem drop_drop (s : Str) : (s.dropWhile isSpaceTm).dropWhile isSpaceTm = s.dropWhile isSpaceTm := by
  induction s with
  | nil => rfl
  | cons c s ih =>
    by_cases h : isSpaceTm c = true
    · simp [List.dropWhile_cons, h, ih]
    · simp [List.dropWhile_cons, h]

theorem step_space {c : Char} (h1 : c ≠ '%') (h : isSpaceTm c = true) (f s : Str) (t : Tm) :
    strptime (c :: f) s t = strptime f (s.dropWhile isSpaceTm) t := by
  rw [strptime.eq_def]
  split <;> simp_all

theorem step_char {c : Char} (h1 : c ≠ '%') (h : isSpaceTm c = false) (f s : Str) (t : Tm) :
    strptime (c :: f) (c :: s) t = strptime f s t := by
  rw [strptime.eq_def]
  split <;> simp_all

theorem reads {i : Instant} {n : Nat} (hd : i.date = afterEpoch n) (hh : i.hour < 24) (hm : i.minute < 60) (hs : i.second < 60)
    {fmt : Str} {ks : List Char} (hk : Mentions fmt ks) :
    ∀ {text : Str}, Written i fmt text → ∀ (more : Str) (t : Tm),
      (∃ rest, strptime fmt (text ++ more) t = some (upd i ks t, rest)) ∧
      (∃ rest, strptime fmt ((text ++ more).dropWhile isSpaceTm) t = some (upd i ks t, rest)) := by
  have hv : i.date.Valid := hd ▸ (afterEpoch_valid n).1
  obtain ⟨v1, v2, v3, v4⟩ := hv
  have v5 : i.date.day ≤ 31 := v4.trans (by unfold monthLength; split <;> (try split) <;> omega)
  have nY := number_four i.date.year
  have nm := fun s => number_two (lo := 1) (hi := 12) i.date.month v1 v2 (by omega) s
  have nd := fun s => number_two (lo := 1) (hi := 31) i.date.day v3 v5 (by omega) s
  have nH := fun s => number_two (lo := 0) (hi := 23) i.hour (by omega) (by omega) (by omega) s
  have nM := fun s => number_two (lo := 0) (hi := 59) i.minute (by omega) (by omega) (by omega) s
  have nS := fun s => number_two (lo := 0) (hi := 61) i.second (by omega) (by omega) (by omega) s
  induction hk with
  | nil =>
    intro text hw more t
    cases hw
    exact ⟨⟨_, by simp [strptime, upd]; rfl⟩, ⟨_, by simp [strptime, upd]; rfl⟩⟩
  | plain c h1 h2 hk ih =>
    intro text hw more t
    cases hw with
    | plain _ h3 hw =>
      by_cases hsp : isSpaceTm c = true
      · rw [step_space h1 hsp, step_space h1 hsp, drop_drop]
        simp only [List.cons_append, List.dropWhile_cons, hsp, if_true]
        exact ⟨(ih hw more t).2, (ih hw more t).2⟩
      · have hsp : isSpaceTm c = false := by simpa using hsp
        simp only [List.cons_append, List.dropWhile_cons, hsp, Bool.false_eq_true, if_false, step_char h1 hsp]
        exact ⟨(ih hw more t).1, (ih hw more t).1⟩
    | _ => exact absurd rfl h1
  | percent hk ih =>
    intro text hw more t
    cases hw with
    | plain _ h3 hw => exact absurd rfl h3
    | percent hw =>
      have : isSpaceTm '%' = false := by decide
      simp only [List.cons_append, List.dropWhile_cons, this, Bool.false_eq_true, if_false, strptime]
      exact ⟨(ih hw more t).1, (ih hw more t).1⟩
  | part k h1 hk ih =>
    intro text hw more t
    cases hw with
    | plain _ h3 hw => exact absurd rfl h3
    | percent hw => exact absurd h1 (by decide)
    | year hy hw =>
      rw [List.append_assoc, drop_four _ (by omega), strptime, nY hy]
      exact ⟨(ih hw more _).1, (ih hw more _).1⟩
    | shortYear hw => exact absurd h1 (by decide)
    | month hw =>
      rw [List.append_assoc, drop_two _ (by omega), strptime, nm]
      exact ⟨(ih hw more _).1, (ih hw more _).1⟩
    | day hw =>
      rw [List.append_assoc, drop_two _ (by omega), strptime, nd]
      exact ⟨(ih hw more _).1, (ih hw more _).1⟩
    | hour hw =>
      rw [List.append_assoc, drop_two _ (by omega), strptime, nH]
      exact ⟨(ih hw more _).1, (ih hw more _).1⟩
    | minute hw =>
      rw [List.append_assoc, drop_two _ (by omega), strptime, nM]
      exact ⟨(ih hw more _).1, (ih hw more _).1⟩
    | second hw =>
      rw [List.append_assoc, drop_two _ (by omega), strptime, nS]
      exact ⟨(ih hw more _).1, (ih hw more _).1⟩
    | fullDate hy hw => exact absurd h1 (by decide)
    | fullTime hw => exact absurd h1 (by decide)
    | hourMinute hw => exact absurd h1 (by decide)
    | usDate hw => exact absurd h1 (by decide)
  | fullDate hk ih =>
    intro text hw more t
    cases hw with
    | plain _ h3 hw => exact absurd rfl h3
    | fullDate hy hw =>
      simp only [dateText, List.append_assoc, List.cons_append]
      rw [drop_four _ (by omega), strptime, strptime.strptimeDate, nY hy]
      simp only [Option.bind_some, nm, nd, Option.map_some]
      exact ⟨(ih hw more _).1, (ih hw more _).1⟩
  | fullTime hk ih =>
    intro text hw more t
    cases hw with
    | plain _ h3 hw => exact absurd rfl h3
    | fullTime hw =>
      simp only [List.append_assoc, List.cons_append]
      rw [drop_two _ (by omega), strptime, strptime.strptimeTime, nH]
      simp only [Option.bind_some, nM, nS, Option.map_some, if_true]
      exact ⟨(ih hw more _).1, (ih hw more _).1⟩
  | hourMinute hk ih =>
    intro text hw more t
    cases hw with
    | plain _ h3 hw => exact absurd rfl h3
    | hourMinute hw =>
      simp only [List.append_assoc, List.cons_append]
      rw [drop_two _ (by omega), strptime, strptime.strptimeTime, nH]
      simp only [Option.bind_some, nM, nS, Option.map_some, if_true, Bool.false_eq_true, if_false]
      exact ⟨(ih hw more _).1, (ih hw more _).1⟩

theorem upd_fields (i : Instant) (ks : List Char) (t : Tm) :
    (upd i ks t).year = (if 'Y' ∈ ks then some i.date.year else t.year) ∧
    (upd i ks t).month = (if 'm' ∈ ks then some i.date.month else t.month) ∧
    (upd i ks t).day = (if 'd' ∈ ks then some i.date.day else t.day) ∧
    (upd i ks t).hour = (if 'H' ∈ ks then some i.hour else t.hour) ∧
    (upd i ks t).minute = (if 'M' ∈ ks then some i.minute else t.minute) ∧
    (upd i ks t).second = (if 'S' ∈ ks then some i.second else t.second) := by
  induction ks generalizing t with
  | nil => simp [upd]
  | cons k ks ih =>
    simp only [upd]
    obtain ⟨h1, h2, h3, h4, h5, h6⟩ := ih (
      if k = 'Y' then { t with year := some i.date.year }
      else if k = 'm' then { t with month := some i.date.month }
      else if k = 'd' then { t with day := some i.date.day }
      else if k = 'H' then { t with hour := some i.hour }
      else if k = 'M' then { t with minute := some i.minute }
      else if k = 'S' then { t with second := some i.second }
      else t)
    rw [h1, h2, h3, h4, h5, h6]
    by_cases c1 : k = 'Y'
    · subst c1; simp
    by_cases c2 : k = 'm'
    · subst c2; simp
    by_cases c3 : k = 'd'
    · subst c3; simp
    by_cases c4 : k = 'H'
    · subst c4; simp
    by_cases c5 : k = 'M'
    · subst c5; simp
    by_cases c6 : k = 'S'
    · subst c6; simp
    simp [c1, c2, c3, c4, c5, c6, Ne.symm c1, Ne.symm c2, Ne.symm c3, Ne.symm c4, Ne.symm c5, Ne.symm c6]

theorem no_nul {i : Instant} {n : Nat} (hd : i.date = afterEpoch n) (hh : i.hour < 24) (hm : i.minute < 60) (hs : i.second < 60)
    {fmt text : Str} {ks : List Char} (hk : Mentions fmt ks) (hw : Written i fmt text) : ∀ c ∈ text, c ≠ '\x00' := by
  have hv : i.date.Valid := hd ▸ (afterEpoch_valid n).1
  obtain ⟨v1, v2, v3, v4⟩ := hv
  have v5 : i.date.day ≤ 31 := v4.trans (by unfold monthLength; split <;> (try split) <;> omega)
  have two_ok : ∀ n < 100, ∀ c ∈ two n, c ≠ '\x00' := by
    intro n hn c hc
    simp only [two, List.mem_cons, List.not_mem_nil, or_false] at hc
    rcases hc with rfl | rfl
    · exact (digit_digit _ (by omega)).2.2.2.2
    · exact (digit_digit _ (by omega)).2.2.2.2
  have four_ok : ∀ n ≤ 9999, ∀ c ∈ four n, c ≠ '\x00' := by
    intro n hn c hc
    simp only [four, List.mem_cons, List.not_mem_nil, or_false] at hc
    rcases hc with rfl | rfl | rfl | rfl <;> exact (digit_digit _ (by omega)).2.2.2.2
  have t1 := two_ok i.date.month (by omega)
  have t2 := two_ok i.date.day (by omega)
  have t3 := two_ok i.hour (by omega)
  have t4 := two_ok i.minute (by omega)
  have t5 := two_ok i.second (by omega)
  have t6 := two_ok (i.date.year % 100) (by omega)
  have l1 : '-' ≠ '\x00' := by decide
  have l2 : ':' ≠ '\x00' := by decide
  have l3 : '/' ≠ '\x00' := by decide
  have l4 : '%' ≠ '\x00' := by decide
  induction hw generalizing ks with
  | nil => simp
  | plain c hc hw ih =>
    cases hk with
    | plain _ _ h2 hk =>
      intro x hx
      rcases List.mem_cons.1 hx with rfl | hx
      · exact h2
      · exact ih hk x hx
    | _ => exact absurd rfl hc
  | percent hw ih =>
    cases hk with
    | plain _ h _ _ => exact absurd rfl h
    | percent hk =>
      intro x hx
      rcases List.mem_cons.1 hx with rfl | hx
      · exact l4
      · exact ih hk x hx
    | part _ h _ => exact absurd h (by decide)
  | year hy hw ih =>
    cases hk with
    | plain _ h _ _ => exact absurd rfl h
    | part _ h hk =>
      intro x hx
      rcases List.mem_append.1 hx with hx | hx
      · exact four_ok _ hy x hx
      · exact ih hk x hx
  | shortYear hw ih =>
    cases hk with
    | plain _ h _ _ => exact absurd rfl h
    | part _ h hk => exact absurd h (by decide)
  | month hw ih =>
    cases hk with
    | plain _ h _ _ => exact absurd rfl h
    | part _ h hk =>
      intro x hx
      rcases List.mem_append.1 hx with hx | hx
      · exact t1 x hx
      · exact ih hk x hx
  | day hw ih =>
    cases hk with
    | plain _ h _ _ => exact absurd rfl h
    | part _ h hk =>
      intro x hx
      rcases List.mem_append.1 hx with hx | hx
      · exact t2 x hx
      · exact ih hk x hx
  | hour hw ih =>
    cases hk with
    | plain _ h _ _ => exact absurd rfl h
    | part _ h hk =>
      intro x hx
      rcases List.mem_append.1 hx with hx | hx
      · exact t3 x hx
      · exact ih hk x hx
  | minute hw ih =>
    cases hk with
    | plain _ h _ _ => exact absurd rfl h
    | part _ h hk =>
      intro x hx
      rcases List.mem_append.1 hx with hx | hx
      · exact t4 x hx
      · exact ih hk x hx
  | second hw ih =>
    cases hk with
    | plain _ h _ _ => exact absurd rfl h
    | part _ h hk =>
      intro x hx
      rcases List.mem_append.1 hx with hx | hx
      · exact t5 x hx
      · exact ih hk x hx
  | fullDate hy hw ih =>
    cases hk with
    | plain _ h _ _ => exact absurd rfl h
    | part _ h _ => exact absurd h (by decide)
    | fullDate hk =>
      intro x hx
      simp only [dateText, List.mem_append, List.mem_cons] at hx
      rcases hx with ((hx | hx | hx) | hx | hx) | hx
      · exact four_ok _ hy x hx
      · exact hx ▸ l1
      · exact t1 x hx
      · exact hx ▸ l1
      · exact t2 x hx
      · exact ih hk x hx
  | fullTime hw ih =>
    cases hk with
    | plain _ h _ _ => exact absurd rfl h
    | part _ h _ => exact absurd h (by decide)
    | fullTime hk =>
      intro x hx
      simp only [List.mem_append, List.mem_cons] at hx
      rcases hx with ((hx | hx | hx) | hx | hx) | hx
      · exact t3 x hx
      · exact hx ▸ l2
      · exact t4 x hx
      · exact hx ▸ l2
      · exact t5 x hx
      · exact ih hk x hx
  | hourMinute hw ih =>
    cases hk with
    | plain _ h _ _ => exact absurd rfl h
    | part _ h _ => exact absurd h (by decide)
    | hourMinute hk =>
      intro x hx
      simp only [List.mem_append, List.mem_cons] at hx
      rcases hx with (hx | hx | hx) | hx
      · exact t3 x hx
      · exact hx ▸ l2
      · exact t4 x hx
      · exact ih hk x hx
  | usDate hw ih =>
    cases hk with
    | plain _ h _ _ => exact absurd rfl h
    | part _ h _ => exact absurd h (by decide)

end Clip.ReadDates

namespace Clip
open Calendar Dates ReadDates

/-- C123: an instant of the years up to 9999, written in a format that mentions year, month, day, hour, minute and second, is
read back: the result is the same time stamp, without the fraction of the second. -/
theorem C123_read_back (strftime : Str → ℤ → Str) (hs : Standard strftime) (micros : Nat) (i : Instant)
    (hi : Since (micros / 1000000) i) (fmt text : Str) (hc : Complete fmt) (hw : Written i fmt text) (hl : text.length < 256) :
    unixToString strftime micros fmt = text ∧ unixParseString text fmt = .ok (some (micros / 1000000 * 1000000)) := by
  have e1 : Int.ofNat (micros / 1000000) = (micros : ℤ) / 1000000 := by simp
  refine ⟨by rw [unixToString, e1]; exact hs _ i fmt text hi hw hl, ?_⟩
  obtain ⟨ks, hk, hall⟩ := hc
  obtain ⟨hh, hm, hsec, n, hd, ht⟩ := hi
  have hnul := no_nul hd hh hm hsec hk hw
  have htake : text.takeWhile (· ≠ '\x00') = text := by
    exact take_all hnul
  obtain ⟨⟨rest, hr⟩, _⟩ := reads hd hh hm hsec hk hw [] {}
  rw [List.append_nil] at hr
  obtain ⟨h1, h2, h3, h4, h5, h6⟩ := upd_fields i ks {}
  rw [if_pos (hall _ (by decide))] at h1 h2 h3 h4 h5 h6
  have hu : upd i ks {} = ⟨some i.date.year, some i.date.month, some i.date.day, some i.hour, some i.minute, some i.second⟩ := by
    rw [← h1, ← h2, ← h3, ← h4, ← h5, ← h6]
  have hv : i.date.Valid := hd ▸ (afterEpoch_valid n).1
  obtain ⟨v1, v2, v3, v4⟩ := hv
  have v5 : i.date.day ≤ 31 := v4.trans (by unfold monthLength; split <;> (try split) <;> omega)
  have hy : i.date.year ≤ 9999 := by
    have : ∀ {f t ks}, Mentions f ks → Written i f t → 'Y' ∈ ks → i.date.year ≤ 9999 := by
      intro f t ks hk
      induction hk generalizing t with
      | nil => simp
      | plain c h1 _ _ ih =>
        intro hw h
        cases hw with
        | plain _ _ hw => exact ih hw h
        | _ => exact absurd rfl h1
      | percent _ ih =>
        intro hw h
        cases hw with
        | plain _ h3 _ => exact absurd rfl h3
        | percent hw => exact ih hw h
      | part k h1 _ ih =>
        intro hw h
        cases hw with
        | plain _ h3 _ => exact absurd rfl h3
        | year hy _ => exact hy
        | percent hw => exact absurd h1 (by decide)
        | shortYear hw => exact absurd h1 (by decide)
        | fullDate hy hw => exact hy
        | fullTime hw => exact absurd h1 (by decide)
        | hourMinute hw => exact absurd h1 (by decide)
        | usDate hw => exact absurd h1 (by decide)
        | month hw => exact ih hw ((List.mem_cons.1 h).resolve_left (by decide))
        | day hw => exact ih hw ((List.mem_cons.1 h).resolve_left (by decide))
        | hour hw => exact ih hw ((List.mem_cons.1 h).resolve_left (by decide))
        | minute hw => exact ih hw ((List.mem_cons.1 h).resolve_left (by decide))
        | second hw => exact ih hw ((List.mem_cons.1 h).resolve_left (by decide))
      | fullDate _ ih =>
        intro hw h
        cases hw with
        | plain _ h3 _ => exact absurd rfl h3
        | fullDate hy hw => exact hy
      | fullTime _ ih =>
        intro hw h
        cases hw with
        | plain _ h3 _ => exact absurd rfl h3
        | fullTime hw =>
          refine ih hw ?_
          simpa using h
      | hourMinute _ ih =>
        intro hw h
        cases hw with
        | plain _ h3 _ => exact absurd rfl h3
        | hourMinute hw =>
          refine ih hw ?_
          simpa using h
    exact this hk hw (hall _ (by decide))
  have hn : n < 100000000 := by
    by_contra hcon
    have hnum := dayNumber_afterEpoch n
    rw [← hd] at hnum
    have := number_bound i.date hy v2 v5
    omega
  rw [unixParseString, htake, unixParse, civilParse, hr, hu]
  simp only
  rw [Nat.mod_eq_of_lt (by omega), Nat.mod_eq_of_lt (by omega), Nat.mod_eq_of_lt (by omega), Nat.mod_eq_of_lt (by omega),
    Nat.mod_eq_of_lt (by omega), Nat.mod_eq_of_lt (by omega)]
  congr 2
  refine C17_civil_to_unix n _ _ _ _ _ i.date hd.symm _ ?_ ?_ <;> omega

/-- C123, violated by the code: with a format that leaves out one of year, month, day, hour, minute and second, reading a time
that was written in that very format is undefined (members of a variable are read that never got a value). -/
theorem C123_lacking_undefined (i : Instant) (t : ℤ) (hi : Since t i) (fmt text : Str) (hc : Lacking fmt)
    (hw : Written i fmt text) : unixParseString text fmt = .undefined := by
  obtain ⟨ks, hk, k, hk1, hk2⟩ := hc
  obtain ⟨hh, hm, hsec, n, hd, ht⟩ := hi
  have hnul := no_nul hd hh hm hsec hk hw
  obtain ⟨⟨rest, hr⟩, _⟩ := reads hd hh hm hsec hk hw [] {}
  rw [List.append_nil] at hr
  obtain ⟨h1, h2, h3, h4, h5, h6⟩ := upd_fields i ks {}
  rw [unixParseString, take_all hnul, unixParse, civilParse, hr]
  generalize upd i ks {} = u at *
  obtain ⟨a, b, c, d, e, f⟩ := u
  simp only [List.mem_cons, List.not_mem_nil, or_false] at hk1
  simp only at h1 h2 h3 h4 h5 h6
  rcases hk1 with rfl | rfl | rfl | rfl | rfl | rfl
  · rw [if_neg hk2] at h1; subst h1; rfl
  · rw [if_neg hk2] at h2; subst h2; cases a <;> rfl
  · rw [if_neg hk2] at h3; subst h3; cases a <;> cases b <;> rfl
  · rw [if_neg hk2] at h4; subst h4; cases a <;> cases b <;> cases c <;> rfl
  · rw [if_neg hk2] at h5; subst h5; cases a <;> cases b <;> cases c <;> cases d <;> rfl
  · rw [if_neg hk2] at h6; subst h6; cases a <;> cases b <;> cases c <;> cases d <;> cases e <;> rfl

/-- C123: what follows a complete time is ignored, the given length of the text is too. -/
theorem C123_rest_ignored (i : Instant) (t : ℤ) (hi : Since t i) (fmt text more : Str) (len : Nat) (hc : Complete fmt)
    (hw : Written i fmt text) : unixParse (text ++ more) len fmt = unixParse text text.length fmt := by
  obtain ⟨ks, hk, hall⟩ := hc
  obtain ⟨hh, hm, hsec, n, hd, ht⟩ := hi
  obtain ⟨⟨r1, h1⟩, _⟩ := reads hd hh hm hsec hk hw more {}
  obtain ⟨⟨r2, h2⟩, _⟩ := reads hd hh hm hsec hk hw [] {}
  rw [List.append_nil] at h2
  simp only [unixParse, civilParse, h1, h2]
  generalize upd i ks {} = u
  obtain ⟨a, b, c, d, e, f⟩ := u
  cases a <;> cases b <;> cases c <;> cases d <;> cases e <;> cases f <;> rfl

/-- C123, violated by the code: characters behind the given length are read. -/
theorem C123_length_ignored : ∃ str len fmt, len ≤ str.length ∧
    unixParse str len fmt ≠ unixParse (str.take len) len fmt :=
  ⟨"2015-01-09 00:00:12".toList, 18, "%Y-%m-%d %H:%M:%S".toList, by decide, by decide +kernel⟩

/-- C123: white space in a format stands for any amount of white space, also for none. -/
theorem C123_blanks (c : Char) (hc : c ∈ [' ', '\t', '\n', '\x0b', '\x0c', '\r']) (blanks rest fmt : Str)
    (hb : ∀ b ∈ blanks, b ∈ [' ', '\t', '\n', '\x0b', '\x0c', '\r'])
    (hr : ∀ b ∈ rest.head?, b ∉ [' ', '\t', '\n', '\x0b', '\x0c', '\r']) (len : Nat) :
    unixParse (blanks ++ rest) len (c :: fmt) = unixParse rest len fmt := by
  have sp : ∀ d : Char, isSpaceTm d = true ↔ d ∈ [' ', '\t', '\n', '\x0b', '\x0c', '\r'] := by
    intro d; simp [isSpaceTm, or_assoc]
  have hd : (blanks ++ rest).dropWhile isSpaceTm = rest := by
    rw [List.dropWhile_append_of_pos (fun b h => (sp b).2 (hb b h))]
    cases rest with
    | nil => rfl
    | cons d r => exact List.dropWhile_cons_of_neg fun h => hr d rfl ((sp d).1 h)
  have key : strptime (c :: fmt) (blanks ++ rest) {} = strptime fmt rest {} := by
    have hp : c ≠ '%' := by rintro rfl; revert hc; decide
    rw [strptime.eq_def]
    split <;> rename_i e <;> try (exact absurd (List.cons.inj e).1 hp)
    · obtain ⟨rfl, rfl⟩ := List.cons.inj e
      rw [if_pos ((sp c).2 hc), hd]
    · cases e
  simp only [unixParse, civilParse, key]

/-- C123: blanks before a number are skipped. -/
theorem C123_leading_blanks (k : Char) (hk : k ∈ ['Y', 'm', 'd', 'H', 'M', 'S', 'F', 'T', 'R']) (n : Nat) (rest fmt : Str)
    (len : Nat) : unixParse (List.replicate n ' ' ++ rest) len ('%' :: k :: fmt) = unixParse rest len ('%' :: k :: fmt) := by
  have hg : ∀ lo hi m, getNumber lo hi m (List.replicate n ' ' ++ rest) = getNumber lo hi m rest := by
    intro lo hi m
    unfold getNumber
    rw [List.dropWhile_append_of_pos (by intro b hb; rw [List.eq_of_mem_replicate hb]; rfl)]
  have key : strptime ('%' :: k :: fmt) (List.replicate n ' ' ++ rest) {} = strptime ('%' :: k :: fmt) rest {} := by
    fin_cases hk <;> simp only [strptime, strptime.strptimeDate, strptime.strptimeTime, hg]
  simp only [unixParse, civilParse, key]

/-- C123, violated by the code: 30 February is accepted, as 1 or 2 March. -/
theorem C123_no_such_day : unixParseString "2015-02-30 00:00:00".toList "%Y-%m-%d %H:%M:%S".toList =
    unixParseString "2015-03-02 00:00:00".toList "%Y-%m-%d %H:%M:%S".toList ∧
    unixParseString "2016-02-30 00:00:00".toList "%Y-%m-%d %H:%M:%S".toList =
    unixParseString "2016-03-01 00:00:00".toList "%Y-%m-%d %H:%M:%S".toList ∧
    unixParseString "2016-03-01 00:00:00".toList "%Y-%m-%d %H:%M:%S".toList = .ok (some 1456790400000000) := by
  decide +kernel

/-- The default format mentions everything. -/
theorem exComplete : Complete "%Y-%m-%d %H:%M:%S".toList :=
  ⟨['Y', 'm', 'd', 'H', 'M', 'S'], .part _ (by decide) (.plain _ (by decide) (by decide) (.part _ (by decide) (.plain _ (by decide)
    (by decide) (.part _ (by decide) (.plain _ (by decide) (by decide) (.part _ (by decide) (.plain _ (by decide) (by decide)
      (.part _ (by decide) (.plain _ (by decide) (by decide) (.part _ (by decide) .nil)))))))))), by decide⟩

/-- C123 with the default format: no other hypothesis than that the year has four digits. -/
theorem C123_default (strftime : Str → ℤ → Str) (hs : Standard strftime) (micros : Nat) (h : micros < 253402300800000000) :
    unixParseString (unixToString strftime micros "%Y-%m-%d %H:%M:%S".toList) "%Y-%m-%d %H:%M:%S".toList =
      .ok (some (micros / 1000000 * 1000000)) := by
  obtain ⟨i, hi, _⟩ := C119_instant ((micros : ℤ) / 1000000) (by omega)
  have hy : i.date.year ≤ 9999 := year_bound hi (by omega)
  obtain ⟨h1, h2⟩ := C123_read_back strftime hs micros i hi _ _ exComplete (written_default i hy) (by
    simp [stamp, dateText, four, two])
  rw [h1, h2]

/-- A time of day alone. -/
theorem exLacking : Lacking "%H:%M".toList :=
  ⟨['H', 'M'], .part _ (by decide) (.plain _ (by decide) (by decide) (.part _ (by decide) .nil)), 'Y', by decide, by decide⟩

example : unixParseString "12:34".toList "%H:%M".toList = .undefined :=
  C123_lacking_undefined ⟨⟨2016, 2, 29⟩, 12, 34, 56⟩ _ exSince _ _ exLacking
    (.hour (.plain _ (by decide) (.minute .nil)))

end Clip
