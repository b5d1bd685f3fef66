import Verif.Model.Time
import Verif.Spec.Calendar
import Mathlib.Tactic.Tauto
import Mathlib.Tactic.IntervalCases
/-! # Lemmas about the calendar, durations and ISO 8601 texts -/
set_option linter.unusedSimpArgs false
namespace Clip
open Calendar

theorem isLeapYear_iff (y : Nat) : isLeapYear y = true ↔ leap y := by
  unfold isLeapYear leap
  simp only [Bool.or_eq_true, Bool.and_eq_true, beq_iff_eq, bne_iff_ne, ne_eq, Nat.dvd_iff_mod_eq_zero]
  omega

theorem daysInMonth_eq (y m : Nat) (h1 : 1 ≤ m) (h2 : m ≤ 12) : daysInMonth y m = monthLength y m := by
  have hl := isLeapYear_iff y
  by_cases h : leap y
  · have : isLeapYear y = true := hl.2 h
    interval_cases m <;> simp [daysInMonth, monthLength, this, h]
  · have : isLeapYear y = false := by cases e : isLeapYear y <;> simp_all
    interval_cases m <;> simp [daysInMonth, monthLength, this, h]

/-- The number of the day, counted from 1 January 1970 as day 0. -/
def dayNumber (d : Date) : Nat := d.day - 1 + yearDays d.year + monthDays d.year d.month

theorem yearDays_succ (y : Nat) (h : 1970 ≤ y) :
    yearDays (y + 1) = yearDays y + (365 + if leap y then 1 else 0) := by
  unfold yearDays
  have : y + 1 - 1970 = (y - 1970) + 1 := by omega
  rw [this, List.range'_concat, List.map_append, List.sum_append]
  have e : 1970 + (y - 1970) = y := by omega
  have hl := isLeapYear_iff y
  by_cases h : leap y
  · simp [e, hl.2 h, h]
  · have : isLeapYear y = false := by cases e : isLeapYear y <;> simp_all
    simp [e, this, h]

theorem monthDays_succ (y m : Nat) (h1 : 1 ≤ m) (h2 : m ≤ 12) :
    monthDays y (m + 1) = monthDays y m + monthLength y m := by
  unfold monthDays
  have : m + 1 - 1 = (m - 1) + 1 := by omega
  rw [this, List.range'_concat, List.map_append, List.sum_append]
  have e : 1 + (m - 1) = m := by omega
  simp [e, daysInMonth_eq y m h1 h2]

theorem monthDays_one (y : Nat) : monthDays y 1 = 0 := by simp [monthDays]

theorem monthDays_13 (y : Nat) : monthDays y 13 = 365 + if leap y then 1 else 0 := by
  have h := fun m h1 h2 => monthDays_succ y m h1 h2
  rw [h 12 (by decide) (by decide), h 11 (by decide) (by decide), h 10 (by decide) (by decide),
    h 9 (by decide) (by decide), h 8 (by decide) (by decide), h 7 (by decide) (by decide),
    h 6 (by decide) (by decide), h 5 (by decide) (by decide), h 4 (by decide) (by decide),
    h 3 (by decide) (by decide), h 2 (by decide) (by decide), h 1 (by decide) (by decide), monthDays_one]
  by_cases hl : leap y <;> simp [monthLength, hl]

theorem monthLength_pos (y m : Nat) : 28 ≤ monthLength y m := by
  unfold monthLength
  split <;> (try split) <;> omega

theorem next_valid (d : Date) (h : d.Valid) : (next d).Valid := by
  obtain ⟨a, b, c, e⟩ := h
  have := monthLength_pos d.year (d.month + 1)
  have := monthLength_pos (d.year + 1) 1
  unfold next
  split
  · exact ⟨a, b, by simp, by simpa using by omega⟩
  · split
    · exact ⟨by simp, by simpa using by omega, by simp, by simpa using by omega⟩
    · exact ⟨by simp, by simp, by simp, by simpa using by omega⟩

theorem next_year (d : Date) : d.year ≤ (next d).year := by
  unfold next; split <;> (try split) <;> simp

theorem dayNumber_next (d : Date) (h : d.Valid) (hy : 1970 ≤ d.year) : dayNumber (next d) = dayNumber d + 1 := by
  obtain ⟨a, b, c, e⟩ := h
  unfold next
  split
  · simp only [dayNumber]; omega
  · split
    · simp only [dayNumber]
      rw [monthDays_succ _ _ a b]; omega
    · rename_i h1 h2
      have hm : d.month = 12 := by omega
      have hd : d.day = monthLength d.year 12 := by rw [hm] at e h1; omega
      simp only [dayNumber]
      rw [yearDays_succ _ hy, monthDays_one, hm]
      have := monthDays_succ d.year 12 (by decide) (by decide)
      rw [monthDays_13] at this
      have := monthLength_pos d.year 12
      omega

theorem afterEpoch_valid (n : Nat) : (afterEpoch n).Valid ∧ 1970 ≤ (afterEpoch n).year := by
  induction n with
  | zero => exact ⟨by refine ⟨?_, ?_, ?_, ?_⟩ <;> decide, by decide⟩
  | succ n ih => exact ⟨next_valid _ ih.1, le_trans ih.2 (next_year _)⟩

theorem dayNumber_afterEpoch (n : Nat) : dayNumber (afterEpoch n) = n := by
  induction n with
  | zero => simp [afterEpoch, dayNumber, yearDays, monthDays]
  | succ n ih =>
    show dayNumber (next (afterEpoch n)) = n + 1
    rw [dayNumber_next _ (afterEpoch_valid n).1 (afterEpoch_valid n).2, ih]

theorem exists_prev (d : Date) (h : d.Valid) (hy : 1970 ≤ d.year) (hne : d ≠ ⟨1970, 1, 1⟩) :
    ∃ e : Date, e.Valid ∧ 1970 ≤ e.year ∧ next e = d := by
  obtain ⟨y, m, dd⟩ := d
  obtain ⟨a, b, c, e⟩ := h
  simp only at a b c e hy
  by_cases h1 : dd = 1
  · by_cases h2 : m = 1
    · subst h1; subst h2
      have : y ≠ 1970 := fun h => hne (by rw [h])
      have p := monthLength_pos (y - 1) 12
      refine ⟨⟨y - 1, 12, monthLength (y - 1) 12⟩, ⟨by simp, by simp, by simp; omega, by simp⟩, by simp; omega, ?_⟩
      simp [next]; omega
    · subst h1
      have p := monthLength_pos y (m - 1)
      refine ⟨⟨y, m - 1, monthLength y (m - 1)⟩, ⟨by simp; omega, by simp; omega, by simp; omega, by simp⟩, hy, ?_⟩
      simp [next]
      rw [if_pos (by omega)]
      simp; omega
  · refine ⟨⟨y, m, dd - 1⟩, ⟨a, b, by simp; omega, by simp; omega⟩, hy, ?_⟩
    simp [next]
    rw [if_pos (by omega)]
    simp; omega

theorem exists_afterEpoch (d : Date) (h : d.Valid) (hy : 1970 ≤ d.year) : ∃ n, afterEpoch n = d := by
  have : ∀ k, ∀ d : Date, dayNumber d = k → d.Valid → 1970 ≤ d.year → ∃ n, afterEpoch n = d := by
    intro k
    induction k with
    | zero =>
      intro d hk h hy
      by_cases hne : d = ⟨1970, 1, 1⟩
      · exact ⟨0, hne.symm⟩
      · obtain ⟨e, h1, h2, h3⟩ := exists_prev d h hy hne
        have := dayNumber_next e h1 h2
        rw [h3, hk] at this; omega
    | succ k ih =>
      intro d hk h hy
      by_cases hne : d = ⟨1970, 1, 1⟩
      · exact ⟨0, hne.symm⟩
      · obtain ⟨e, h1, h2, h3⟩ := exists_prev d h hy hne
        have := dayNumber_next e h1 h2
        rw [h3, hk] at this
        obtain ⟨n, hn⟩ := ih e (by omega) h1 h2
        exact ⟨n + 1, by show next (afterEpoch n) = d; rw [hn, h3]⟩
  exact this _ d rfl h hy

theorem unixMicros_eq (n hh mm ss ms : Nat) (off : Int) :
    unixMicros ⟨(afterEpoch n).year, (afterEpoch n).month, (afterEpoch n).day, hh, mm, ss, ms, off⟩ =
      (((n : Int) * 86400000000 + hh * 3600000000 + mm * 60000000 + ss * 1000000 + ms * 1000 - off * 1000000)
        % 18446744073709551616).toNat := by
  have h := dayNumber_afterEpoch n
  obtain ⟨⟨-, -, hd, -⟩, -⟩ := afterEpoch_valid n
  unfold dayNumber at h
  unfold unixMicros
  simp only
  congr 2
  have : ((afterEpoch n).day : Int) - 1 + yearDays (afterEpoch n).year + monthDays (afterEpoch n).year (afterEpoch n).month = n := by
    omega
  rw [this]; omega


/-! ## ISO 8601 texts -/

theorem strAt_mid (p r : Str) (c : Char) : strAt (p ++ c :: r) p.length = some c := by
  simp [strAt]

theorem digitVal_two (a b : Char) : digitsVal [a, b] = (a.toNat - 48) * 10 + (b.toNat - 48) := by
  simp [digitsVal]

theorem digit_toNat (n : Nat) (h : n < 10) : (digit n).toNat = 48 + n := by
  unfold digit; interval_cases n <;> decide

theorem digit_isDigit (n : Nat) (h : n < 10) : isDigitC (digit n) = true := by
  unfold digit; interval_cases n <;> decide

theorem digitsVal_two (n : Nat) (h : n < 100) : digitsVal (two n) = n := by
  simp only [two, digitVal_two]
  rw [digit_toNat _ (by omega), digit_toNat _ (by omega)]; omega

theorem digitsVal_four (n : Nat) (h : n < 10000) : digitsVal (four n) = n := by
  simp only [four, digitsVal, List.foldl]
  rw [digit_toNat _ (by omega), digit_toNat _ (by omega), digit_toNat _ (by omega), digit_toNat _ (by omega)]; omega

theorem digitRange_append (p ds r : Str) (h : ∀ c ∈ ds, isDigitC c = true) :
    digitRange (p ++ (ds ++ r)) p.length ds.length = .ok (some ds) := by
  induction ds generalizing p with
  | nil => rfl
  | cons c ds ih =>
    have e : strAt (p ++ (c :: ds ++ r)) p.length = some c := strAt_mid p (ds ++ r) c
    have := ih (p ++ [c]) (fun x hx => h x (List.mem_cons_of_mem _ hx))
    simp only [List.append_assoc, List.cons_append, List.nil_append, List.length_append, List.length_cons, List.length_nil, Nat.zero_add] at this
    simp only [List.length_cons, digitRange, e, h c (by simp), if_pos]
    simp only [List.cons_append, this]

theorem two_digits (n : Nat) (h : n < 100) : ∀ c ∈ two n, isDigitC c = true := by
  intro c hc
  simp only [two, List.mem_cons, List.not_mem_nil, or_false] at hc
  rcases hc with rfl | rfl <;> apply digit_isDigit <;> omega

theorem four_digits (n : Nat) (h : n < 10000) : ∀ c ∈ four n, isDigitC c = true := by
  intro c hc
  simp only [four, List.mem_cons, List.not_mem_nil, or_false] at hc
  rcases hc with rfl | rfl | rfl | rfl <;> apply digit_isDigit <;> omega

theorem digitRange_two (p r : Str) (n : Nat) (h : n < 100) :
    digitRange (p ++ (two n ++ r)) p.length 2 = .ok (some (two n)) :=
  digitRange_append p (two n) r (two_digits n h)

/-- Two digits behind a separator `c`. -/
theorem digitRange_sep (p r : Str) (c : Char) (n : Nat) (h : n < 100) :
    digitRange (p ++ c :: (two n ++ r)) (p.length + 1) 2 = .ok (some (two n)) := by
  have := digitRange_two (p ++ [c]) r n h
  simpa using this

theorem digitCopy_sep (p r : Str) (c : Char) (n : Nat) (h : n < 100) :
    digitCopy (p ++ c :: (two n ++ r)) (p.length + 1) 2 = .ok (some (two n)) := by
  unfold digitCopy
  rw [if_pos (by simp [two] <;> omega), digitRange_sep p r c n h]

theorem parseSecond_text (p t : Str) (d : Civil) (n : Nat) (h : n < 100) :
    parseSecond (p ++ ':' :: (two n ++ t)) p.length d =
      if n ≤ 59 then
        match parseSecondFrac (p ++ ':' :: (two n ++ t)) (p.length + 3) { d with second := n } with
        | .ok none => parseTimeOffset (p ++ ':' :: (two n ++ t)) (p.length + 3) { d with second := n }
        | o => o
      else .ok none := by
  unfold parseSecond
  rw [if_neg (by simp), if_neg (by rw [strAt_mid]; simp), digitRange_sep p t ':' n h]
  simp only [digitsVal_two n h]
  rfl

theorem parseMinute_text (p t : Str) (d : Civil) (n : Nat) (h : n < 100) :
    parseMinute (p ++ ':' :: (two n ++ t)) p.length d =
      if n ≤ 59 then parseSecond (p ++ ':' :: (two n ++ t)) (p.length + 3) { d with minute := n } else .ok none := by
  unfold parseMinute
  rw [if_neg (by simp), if_neg (by rw [strAt_mid]; simp), digitRange_sep p t ':' n h]
  simp only [digitsVal_two n h]

theorem parseHour_text (p t : Str) (d : Civil) (c : Char) (hc : c = 'T' ∨ c = 't') (n : Nat) (h : n < 100) :
    parseHour (p ++ c :: (two n ++ t)) p.length d =
      if n ≤ 24 then parseMinute (p ++ c :: (two n ++ t)) (p.length + 3) { d with hour := n } else .ok none := by
  unfold parseHour
  rw [if_neg (by simp), if_neg (by rw [strAt_mid]; simp; tauto), digitRange_sep p t c n h]
  simp only [digitsVal_two n h]

/-- The day check of the code admits every day 1..31. -/
theorem day_check (y n : Nat) : (n > 0 ∧ n ≤ daysInMonth y n) ↔ (1 ≤ n ∧ n ≤ 31) := by
  unfold daysInMonth
  by_cases h : n ≤ 31
  · interval_cases n <;> simp <;> split <;> omega
  · split <;> (try split) <;> omega

theorem parseDay_text (p t : Str) (d : Civil) (n : Nat) (h : n < 100) :
    parseDay (p ++ '-' :: (two n ++ t)) p.length d =
      if 1 ≤ n ∧ n ≤ 31 then
        if t ≠ [] then parseHour (p ++ '-' :: (two n ++ t)) (p.length + 3) { d with day := n }
        else .ok (some { d with day := n })
      else .ok none := by
  unfold parseDay
  rw [if_neg (by simp), if_neg (by rw [strAt_mid]; simp), digitCopy_sep p t '-' n h]
  simp only [digitsVal_two n h]
  refine if_congr (day_check _ _) ?_ rfl
  refine if_congr ?_ rfl rfl
  rw [← List.length_pos_iff]
  simp only [List.length_append, List.length_cons, two, List.length_nil]
  omega

theorem parseMonth_text (p t : Str) (d : Civil) (n : Nat) (h : n < 100) :
    parseMonth (p ++ '-' :: (two n ++ t)) p.length d =
      if 1 ≤ n ∧ n ≤ 12 then
        if t ≠ [] then parseDay (p ++ '-' :: (two n ++ t)) (p.length + 3) { d with month := n }
        else .ok (some { d with month := n })
      else .ok none := by
  unfold parseMonth
  rw [if_neg (by simp [two] <;> omega), if_neg (by rw [strAt_mid]; simp), digitCopy_sep p t '-' n h]
  simp only [digitsVal_two n h]
  refine if_congr (by omega) ?_ rfl
  refine if_congr ?_ rfl rfl
  rw [← List.length_pos_iff]
  simp only [List.length_append, List.length_cons, two, List.length_nil]
  omega

theorem iso8601_year (t : Str) (n : Nat) (h : n < 10000) :
    iso8601Parse (four n ++ t) =
      if t ≠ [] then parseMonth (four n ++ t) 4 { year := n } else .ok (some { year := n }) := by
  unfold iso8601Parse
  have e : digitCopy (four n ++ t) 0 4 = .ok (some (four n)) := by
    unfold digitCopy
    rw [if_pos (by simp [four] <;> omega)]
    exact digitRange_append [] (four n) t (four_digits n h)
  rw [if_neg (by simp [four]), e]
  simp only [digitsVal_four n h]
  refine if_congr ?_ rfl rfl
  rw [← List.length_pos_iff]
  simp only [List.length_append, four, List.length_cons, List.length_nil]
  omega

theorem countDigits_append (p ds r : Str) (h : ∀ c ∈ ds, isDigitC c = true)
    (hr : ∀ c r', r = c :: r' → isDigitC c = false) :
    countDigits (p ++ (ds ++ r)) p.length = ds.length := by
  induction ds generalizing p with
  | nil =>
    unfold countDigits
    cases r with
    | nil => simp
    | cons c r => simp [hr c r rfl]
  | cons c ds ih =>
    have := ih (p ++ [c]) (fun x hx => h x (List.mem_cons_of_mem _ hx))
    simp only [List.append_assoc, List.cons_append, List.nil_append, List.length_append, List.length_cons, List.length_nil, Nat.zero_add] at this
    unfold countDigits
    simp only [List.cons_append, this]
    simp [h c (by simp)]


theorem parseTimeOffset_zone (p : Str) (z : Zone) (hz : z.TwoDigits) (d : Civil) :
    parseTimeOffset (p ++ z.text) p.length d =
      .ok (if z.hours ≤ 24 ∧ z.minutes ≤ 59 then some { d with offset := z.seconds } else none) := by
  cases z with
  | utc =>
    unfold parseTimeOffset
    simp only [Zone.text]
    rw [strAt_mid]
    simp [Zone.hours, Zone.minutes, Zone.seconds]
  | east h m =>
    obtain ⟨h1, h2⟩ := hz
    simp only [Zone.hours, Zone.minutes] at h1 h2
    unfold parseTimeOffset
    simp only [Zone.text]
    rw [strAt_mid]
    have a := digitRange_sep p (':' :: two m) '+' h h1
    have b := digitRange_sep (p ++ '+' :: two h) [] ':' m h2
    have c := strAt_mid (p ++ '+' :: two h) (two m) ':'
    simp [two] at a b c
    simp [two, a, b, c]
    have v1 := digitsVal_two h h1
    have v2 := digitsVal_two m h2
    simp only [two] at v1 v2
    rw [v1, v2]
    simp only [Zone.hours, Zone.minutes, Zone.seconds]
    by_cases q1 : h ≤ 24 <;> by_cases q2 : m ≤ 59 <;> simp [q1, q2]
  | west h m =>
    obtain ⟨h1, h2⟩ := hz
    simp only [Zone.hours, Zone.minutes] at h1 h2
    unfold parseTimeOffset
    simp only [Zone.text]
    rw [strAt_mid]
    have a := digitRange_sep p (':' :: two m) '-' h h1
    have b := digitRange_sep (p ++ '-' :: two h) [] ':' m h2
    have c := strAt_mid (p ++ '-' :: two h) (two m) ':'
    simp [two] at a b c
    simp [two, a, b, c]
    have v1 := digitsVal_two h h1
    have v2 := digitsVal_two m h2
    simp only [two] at v1 v2
    rw [v1, v2]
    simp only [Zone.hours, Zone.minutes, Zone.seconds]
    by_cases q1 : h ≤ 24 <;> by_cases q2 : m ≤ 59 <;> simp [q1, q2]

theorem zone_text_head (z : Zone) : ∃ c r, z.text = c :: r ∧ isDigitC c = false ∧ c ≠ '.' := by
  cases z <;> exact ⟨_, _, rfl, by decide, by decide⟩

theorem fracMillis_eq (ds : List Nat) (h : ∀ a ∈ ds, a < 10) (h1 : 1 ≤ ds.length) (h3 : ds.length ≤ 3) :
    digitsVal (ds.map digit) * 10 ^ (3 - ds.length) = fracMillis ds := by
  match ds, h1, h3 with
  | [a], _, _ =>
    have := h a (by simp)
    simp [digitsVal, fracMillis, digit_toNat _ this]; omega
  | [a, b], _, _ =>
    have := h a (by simp)
    have := h b (by simp)
    simp [digitsVal, fracMillis, digit_toNat, *]; omega
  | [a, b, c], _, _ =>
    have := h a (by simp)
    have := h b (by simp)
    have := h c (by simp)
    simp [digitsVal, fracMillis, digit_toNat, *]; omega

theorem parseFracZone (p : Str) (ds : List Nat) (hd : ∀ a ∈ ds, a < 10) (z : Zone) (hz : z.TwoDigits) (d : Civil)
    (hm : d.millisecond = 0) :
    (match parseSecondFrac (p ++ (fracText ds ++ z.text)) p.length d with
      | .ok none => parseTimeOffset (p ++ (fracText ds ++ z.text)) p.length d
      | o => o) =
      .ok (if ds.length ≤ 3 ∧ z.hours ≤ 24 ∧ z.minutes ≤ 59 then
        some { d with millisecond := fracMillis ds, offset := z.seconds } else none) := by
  obtain ⟨c, r, hc, hdig, hdot⟩ := zone_text_head z
  by_cases hnil : ds = []
  · subst hnil
    have e : parseSecondFrac (p ++ (fracText [] ++ z.text)) p.length d = .ok none := by
      unfold parseSecondFrac
      simp only [fracText, List.nil_append, hc]
      rw [if_neg (by simp), strAt_mid]
      simp [hdot]
    rw [e]
    simp only [fracText, List.nil_append]
    rw [parseTimeOffset_zone p z hz d]
    simp [fracMillis, hm]
  · have ht : fracText ds = '.' :: ds.map digit := by cases ds <;> simp_all [fracText]
    have hcd := countDigits_append (p ++ ['.']) (ds.map digit) z.text
      (by intro x hx; obtain ⟨a, ha, rfl⟩ := List.mem_map.1 hx; exact digit_isDigit a (hd a ha))
      (by intro x r' hx; rw [hc] at hx; cases hx; exact hdig)
    simp only [List.append_assoc, List.cons_append, List.nil_append, List.length_append, List.length_cons, List.length_nil, List.length_map, Nat.zero_add] at hcd
    have hpos : 1 ≤ ds.length := List.length_pos_iff.2 hnil
    have e : parseSecondFrac (p ++ (fracText ds ++ z.text)) p.length d =
        if ds.length ≤ 3 then .ok (if z.hours ≤ 24 ∧ z.minutes ≤ 59 then
          some { d with millisecond := fracMillis ds, offset := z.seconds } else none) else .ok none := by
      unfold parseSecondFrac
      rw [ht]
      simp only [List.cons_append]
      rw [if_neg (by simp), strAt_mid]
      simp only [ne_eq, not_true_eq_false, if_false, hcd]
      by_cases h3 : ds.length ≤ 3
      · rw [if_neg (by omega), if_pos h3]
        have hz' := parseTimeOffset_zone (p ++ '.' :: ds.map digit) z hz { d with millisecond := fracMillis ds }
        have e1 : ((p ++ '.' :: (ds.map digit ++ z.text)).drop (p.length + 1)).take ds.length = ds.map digit := by
          have : p ++ '.' :: (ds.map digit ++ z.text) = (p ++ ['.']) ++ (ds.map digit ++ z.text) := by simp
          rw [this, List.drop_left' (by simp), List.take_left' (by simp)]
        rw [e1, fracMillis_eq ds hd hpos h3]
        have e2 : p.length + 1 + ds.length = (p ++ '.' :: ds.map digit).length := by simp; omega
        have e3 : p ++ '.' :: (ds.map digit ++ z.text) = (p ++ '.' :: ds.map digit) ++ z.text := by simp
        rw [e2, e3, hz']
      · rw [if_pos (by omega), if_neg h3]
    rw [e]
    have e4 : parseTimeOffset (p ++ (fracText ds ++ z.text)) p.length d = .ok none := by
      unfold parseTimeOffset
      rw [ht]
      simp only [List.cons_append]
      rw [strAt_mid]
      simp
    rw [e4]
    by_cases h3 : ds.length ≤ 3 <;> by_cases h4 : z.hours ≤ 24 <;> by_cases h5 : z.minutes ≤ 59 <;> simp [h3, h4, h5]

theorem iso8601_exact (y mo d h mi s : Nat) (ds : List Nat) (z : Zone)
    (hy : y < 10000) (hmo : mo < 100) (hd : d < 100) (hh : h < 100) (hmi : mi < 100) (hs : s < 100)
    (hds : ∀ a ∈ ds, a < 10) (hz : z.TwoDigits) :
    iso8601Parse (timeText y mo d h mi s ++ fracText ds ++ z.text) =
      .ok (if (1 ≤ mo ∧ mo ≤ 12) ∧ (1 ≤ d ∧ d ≤ 31) ∧ h ≤ 24 ∧ mi ≤ 59 ∧ s ≤ 59 ∧
            ds.length ≤ 3 ∧ z.hours ≤ 24 ∧ z.minutes ≤ 59 then
          some ⟨y, mo, d, h, mi, s, fracMillis ds, z.seconds⟩ else none) := by
  have hr := parseFracZone (four y ++ '-' :: (two mo ++ '-' :: (two d ++ 'T' :: (two h ++ ':' :: (two mi ++ ':' :: two s)))))
    ds hds z hz ⟨y, mo, d, h, mi, s, 0, 0⟩ rfl
  have h1 := iso8601_year ('-' :: (two mo ++ '-' :: (two d ++ 'T' :: (two h ++ ':' :: (two mi ++ ':' :: (two s ++ (fracText ds ++ z.text))))))) y hy
  have h2 := parseMonth_text (four y) ('-' :: (two d ++ 'T' :: (two h ++ ':' :: (two mi ++ ':' :: (two s ++ (fracText ds ++ z.text)))))) { year := y } mo hmo
  have h3 := parseDay_text (four y ++ '-' :: two mo) ('T' :: (two h ++ ':' :: (two mi ++ ':' :: (two s ++ (fracText ds ++ z.text))))) { year := y, month := mo } d hd
  have h4 := parseHour_text (four y ++ '-' :: (two mo ++ '-' :: two d)) (':' :: (two mi ++ ':' :: (two s ++ (fracText ds ++ z.text)))) { year := y, month := mo, day := d } 'T' (Or.inl rfl) h hh
  have h5 := parseMinute_text (four y ++ '-' :: (two mo ++ '-' :: (two d ++ 'T' :: two h))) (':' :: (two s ++ (fracText ds ++ z.text))) { year := y, month := mo, day := d, hour := h } mi hmi
  have h6 := parseSecond_text (four y ++ '-' :: (two mo ++ '-' :: (two d ++ 'T' :: (two h ++ ':' :: two mi)))) (fracText ds ++ z.text) { year := y, month := mo, day := d, hour := h, minute := mi } s hs
  have l4 : (four y).length = 4 := rfl
  have l2 : ∀ n, (two n).length = 2 := fun _ => rfl
  simp only [List.append_assoc, List.cons_append, List.nil_append, List.length_append, List.length_cons, l4, l2,
    ne_eq, reduceCtorEq, not_false_eq_true, if_true, Nat.reduceAdd] at hr h1 h2 h3 h4 h5 h6
  simp only [timeText, dateText, List.append_assoc, List.cons_append, List.nil_append]
  rw [h1, h2, h3, h4, h5, h6, hr]
  by_cases q1 : (1 ≤ mo ∧ mo ≤ 12) <;> by_cases q2 : (1 ≤ d ∧ d ≤ 31) <;> by_cases q3 : h ≤ 24 <;>
    by_cases q4 : mi ≤ 59 <;> by_cases q5 : s ≤ 59 <;> simp [q1, q2, q3, q4, q5]

theorem iso8601_date (y mo d : Nat) (hy : y < 10000) (hmo : mo < 100) (hd : d < 100) :
    iso8601Parse (dateText y mo d) =
      .ok (if (1 ≤ mo ∧ mo ≤ 12) ∧ (1 ≤ d ∧ d ≤ 31) then some { year := y, month := mo, day := d } else none) := by
  have h1 := iso8601_year ('-' :: (two mo ++ '-' :: (two d ++ []))) y hy
  have h2 := parseMonth_text (four y) ('-' :: (two d ++ [])) { year := y } mo hmo
  have h3 := parseDay_text (four y ++ '-' :: two mo) [] { year := y, month := mo } d hd
  have l4 : (four y).length = 4 := rfl
  have l2 : ∀ n, (two n).length = 2 := fun _ => rfl
  simp only [List.append_assoc, List.cons_append, List.nil_append, List.length_append, List.length_cons, l4, l2,
    ne_eq, reduceCtorEq, not_false_eq_true, if_true, Nat.reduceAdd, List.append_nil, not_true_eq_false, if_false] at h1 h2 h3
  simp only [dateText, List.append_assoc, List.cons_append, List.nil_append]
  rw [h1, h2, h3]
  by_cases q1 : (1 ≤ mo ∧ mo ≤ 12) <;> by_cases q2 : (1 ≤ d ∧ d ≤ 31) <;> simp [q1, q2]

end Clip
