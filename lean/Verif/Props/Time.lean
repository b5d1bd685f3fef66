import Verif.Lemmas.Time
/-! # Properties C17, C18, C19, C56: calendar, ISO 8601, durations -/
set_option linter.unusedSimpArgs false
namespace Clip
open Calendar

/-! ## C17 -/

/-- C17: the time stamp of a calendar date and time is the number of days since 1 January 1970 (obtained by
walking through the calendar day by day), times the length of a day, plus the time of the day, minus the
UTC offset - as long as that number is one the 64 bit result can hold. -/
theorem C17_civil_to_unix (n hh mm ss ms : Nat) (off : Int) (d : Date) (hd : afterEpoch n = d)
    (micros : Nat)
    (hm : (micros : Int) = n * 86400000000 + hh * 3600000000 + mm * 60000000 + ss * 1000000 + ms * 1000
      - off * 1000000)
    (hfit : micros < 2 ^ 64) :
    unixMicros ⟨d.year, d.month, d.day, hh, mm, ss, ms, off⟩ = micros := by
  subst hd
  rw [unixMicros_eq, ← hm, Int.emod_eq_of_lt (Int.natCast_nonneg _) (by exact_mod_cast hfit)]
  exact Int.toNat_natCast _

/-- C17: the dates reached by walking day by day are exactly the valid dates since 1970. -/
theorem C17_every_date (d : Date) : (∃ n, afterEpoch n = d) ↔ d.Valid ∧ 1970 ≤ d.year :=
  ⟨fun ⟨n, h⟩ => h ▸ afterEpoch_valid n, fun ⟨h, hy⟩ => exists_afterEpoch d h hy⟩

/-- C17: all valid times since 1970, in years up to 9999, fit; different times have different stamps, and
the order of the stamps is the order of the times. -/
theorem C17_order (n n' t t' : Nat) (ht : t < 86400000) (ht' : t' < 86400000)
    (hn : n < 100000000) (hn' : n' < 100000000) :
    let stamp := fun n t => unixMicros ⟨(afterEpoch n).year, (afterEpoch n).month, (afterEpoch n).day,
      t / 3600000, t / 60000 % 60, t / 1000 % 60, t % 1000, 0⟩
    (stamp n t < stamp n' t' ↔ n < n' ∨ (n = n' ∧ t < t')) := by
  intro stamp
  have key : ∀ n t, t < 86400000 → n < 100000000 → stamp n t = n * 86400000000 + t * 1000 := by
    intro n t h h2
    apply C17_civil_to_unix n _ _ _ _ _ _ rfl
    · push_cast; omega
    · omega
  rw [key n t ht hn, key n' t' ht' hn']
  omega

/-- The hypotheses are met: 29 February 2000 is day 11016. -/
example : (⟨2000, 2, 29⟩ : Date).Valid ∧ dayNumber ⟨2000, 2, 29⟩ = 11016 := by
  refine ⟨⟨?_, ?_, ?_, ?_⟩, ?_⟩ <;> decide
example : unixMicros ⟨2000, 2, 29, 1, 2, 3, 4, 3600⟩ = 951782523004000 := by decide
/-- 1900 is no leap year, 2000 is. -/
example : ¬ (⟨1900, 2, 29⟩ : Date).Valid := by
  intro h; exact absurd h.2.2.2 (by decide)

/-! ## C18 -/

/-- C18: exactly which times `YYYY-MM-DDThh:mm:ss[.fff](Z|±hh:mm)` are accepted, and with which meaning. -/
theorem C18_iso8601_exact (y mo d h mi s : Nat) (ds : List Nat) (z : Zone)
    (hy : y < 10000) (hmo : mo < 100) (hd : d < 100) (hh : h < 100) (hmi : mi < 100) (hs : s < 100)
    (hds : ∀ a ∈ ds, a < 10) (hz : z.TwoDigits) :
    iso8601Parse (timeText y mo d h mi s ++ fracText ds ++ z.text) =
      .ok (if (1 ≤ mo ∧ mo ≤ 12) ∧ (1 ≤ d ∧ d ≤ 31) ∧ h ≤ 24 ∧ mi ≤ 59 ∧ s ≤ 59 ∧
            ds.length ≤ 3 ∧ z.hours ≤ 24 ∧ z.minutes ≤ 59 then
          some ⟨y, mo, d, h, mi, s, fracMillis ds, z.seconds⟩ else none) :=
  iso8601_exact y mo d h mi s ds z hy hmo hd hh hmi hs hds hz

/-- C18, the direction that holds: every valid date and time is read back exactly. -/
theorem C18_iso8601_roundtrip_partial (dt : Date) (h mi s : Nat) (ds : List Nat) (z : Zone) (hv : dt.Valid)
    (hy : dt.year ≤ 9999) (hh : h ≤ 23) (hmi : mi ≤ 59) (hs : s ≤ 59) (hds : ∀ a ∈ ds, a < 10)
    (hlen : ds.length ≤ 3) (hzh : z.hours ≤ 23) (hzm : z.minutes ≤ 59) :
    iso8601Parse (timeText dt.year dt.month dt.day h mi s ++ fracText ds ++ z.text) =
      .ok (some ⟨dt.year, dt.month, dt.day, h, mi, s, fracMillis ds, z.seconds⟩) := by
  obtain ⟨a, b, c, e⟩ := hv
  have hl : monthLength dt.year dt.month ≤ 31 := by
    unfold monthLength; split <;> (try split) <;> omega
  rw [iso8601_exact _ _ _ _ _ _ _ _ (by omega) (by omega) (by omega) (by omega) (by omega) (by omega) hds
    ⟨by omega, by omega⟩, if_pos ⟨⟨a, b⟩, ⟨c, by omega⟩, by omega, hmi, hs, hlen, by omega, hzm⟩]

/-- C18: dates without a time. -/
theorem C18_iso8601_date (y mo d : Nat) (hy : y < 10000) (hmo : mo < 100) (hd : d < 100) :
    iso8601Parse (dateText y mo d) =
      .ok (if (1 ≤ mo ∧ mo ≤ 12) ∧ (1 ≤ d ∧ d ≤ 31) then some { year := y, month := mo, day := d } else none) :=
  iso8601_date y mo d hy hmo hd

/-- C18 fails: dates that do not exist are accepted - for every year, 30 and 31 February. -/
theorem C18_no_such_day_accepted (y d : Nat) (hy : y < 10000) (hd : d = 30 ∨ d = 31) :
    ¬ (⟨y, 2, d⟩ : Date).Valid ∧
    iso8601Parse (dateText y 2 d) = .ok (some { year := y, month := 2, day := d }) := by
  constructor
  · intro h
    have := h.2.2.2
    simp only [monthLength] at this
    split at this <;> omega
  · rw [iso8601_date y 2 d hy (by omega) (by omega), if_pos (by omega)]

/-- C18 fails: an hour 24 (with any minutes) is accepted. -/
theorem C18_hour_24_accepted (y mi s : Nat) (hy : y < 10000) (hmi : mi ≤ 59) (hs : s ≤ 59) :
    iso8601Parse (timeText y 1 1 24 mi s ++ ['Z']) = .ok (some ⟨y, 1, 1, 24, mi, s, 0, 0⟩) := by
  have := iso8601_exact y 1 1 24 mi s [] .utc hy (by omega) (by omega) (by omega) (by omega) (by omega)
    (by simp) ⟨by simp [Zone.hours], by simp [Zone.minutes]⟩
  rw [if_pos (by simp [Zone.hours, Zone.minutes]; omega)] at this
  simpa [fracText, Zone.text, fracMillis, Zone.seconds] using this

/-- C18 fails: text behind a numeric UTC offset is ignored. -/
theorem C18_trailing_text_accepted :
    iso8601Parse "2015-01-02T03:04:05+01:00 nonsense".toList =
      .ok (some ⟨2015, 1, 2, 3, 4, 5, 0, 3600⟩) := by
  rfl

/-- C18 fails: on `YYYY-MM-` the parser reads beyond the terminating NUL. -/
theorem C18_short_input_undefined : iso8601Parse "2015-01-".toList = .undefined := by
  rfl

example : iso8601Parse "2015-01-02T03:04:05.678-01:30".toList =
    .ok (some ⟨2015, 1, 2, 3, 4, 5, 678, -5400⟩) :=
  C18_iso8601_roundtrip_partial ⟨2015, 1, 2⟩ 3 4 5 [6, 7, 8] (.west 1 30)
    (by refine ⟨?_, ?_, ?_, ?_⟩ <;> decide) (by decide) (by decide) (by decide) (by decide)
    (by simp) (by decide) (by decide) (by decide)

/-! ## C19 -/

/-- C19: adding and then subtracting a duration gives back the time point, in both orders, always (also
across an overflow of the 64 bit counter). -/
theorem C19_add_sub (t d : UInt64) : timeSub (timeAdd t d) d = t ∧ timeAdd (timeSub t d) d = t := by
  simp [timeSub, timeAdd]

/-- C19: the difference of two time points does not depend on their order, is the duration between them and is
zero only for equal ones. -/
theorem C19_diff (a b : UInt64) :
    timeDiff a b = timeDiff b a ∧
    ((timeDiff a b).toNat : Int) = |(a.toNat : Int) - b.toNat| ∧
    (timeDiff a b = 0 ↔ a = b) := by
  have key : ∀ a b : UInt64, ((timeDiff a b).toNat : Int) = |(a.toNat : Int) - b.toNat| := by
    intro a b
    unfold timeDiff
    split
    · rename_i h
      have h' : b.toNat < a.toNat := UInt64.lt_iff_toNat_lt.1 h
      rw [UInt64.toNat_sub_of_le _ _ (UInt64.le_iff_toNat_le.2 (by omega)), abs_of_nonneg (by omega)]
      omega
    · rename_i h
      have h' : a.toNat ≤ b.toNat := by
        have := mt UInt64.lt_iff_toNat_lt.2 h; omega
      rw [UInt64.toNat_sub_of_le _ _ (UInt64.le_iff_toNat_le.2 h'), abs_of_nonpos (by omega)]
      omega
  refine ⟨?_, key a b, ?_⟩
  · apply UInt64.toNat_inj.1
    have h1 := key a b
    have h2 := key b a
    rw [abs_sub_comm] at h2
    omega
  · have h1 := key a b
    constructor
    · intro h
      rw [h] at h1
      apply UInt64.toNat_inj.1
      have := abs_eq_zero.1 h1.symm
      omega
    · rintro rfl
      simp [timeDiff]

/-- C19: the unit accessors are the number of whole units in the duration, ... -/
theorem C19_units (d : Nat) :
    (durMillis d * 1000 ≤ d ∧ d < (durMillis d + 1) * 1000) ∧
    (durSeconds d * 1000000 ≤ d ∧ d < (durSeconds d + 1) * 1000000) ∧
    (durMinutes d * 60000000 ≤ d ∧ d < (durMinutes d + 1) * 60000000) ∧
    (durHours d * 3600000000 ≤ d ∧ d < (durHours d + 1) * 3600000000) ∧
    (durDays d * 86400000000 ≤ d ∧ d < (durDays d + 1) * 86400000000) := by
  unfold durDays durHours durMinutes durSeconds durMillis
  omega

/-- ... and undo the constructors as long as the duration fits 64 bits. -/
theorem C19_from (v : Nat) (h : v < 200000000) :
    durDays (fromDays v) = v ∧ durHours (fromHours v) = v ∧ durMinutes (fromMinutes v) = v ∧
    durSeconds (fromSeconds v) = v ∧ durMillis (fromMilliseconds v) = v ∧
    fromDays v = fromHours (24 * v) ∧ fromHours v = fromMinutes (60 * v) ∧ fromMinutes v = fromSeconds (60 * v) ∧
    fromSeconds v = fromMilliseconds (1000 * v) := by
  unfold durDays durHours durMinutes durSeconds durMillis fromDays fromHours fromMinutes fromSeconds fromMilliseconds
  omega

/-- C19: a duration given in nanoseconds is the number of whole microseconds in it. -/
theorem C19_nanoseconds (v : Nat) :
    fromNanoseconds v * 1000 ≤ v ∧ v < (fromNanoseconds v + 1) * 1000 ∧
    (v * 1000 < 2 ^ 64 → fromNanoseconds (1000000 * v) = fromMilliseconds v) := by
  unfold fromNanoseconds fromMilliseconds
  omega

/-- C19: the constructors multiply with the length of the unit in microseconds whenever the result fits 64 bits. -/
theorem C19_from_exact (v : Nat) :
    (v * 86400000000 < 2 ^ 64 → fromDays v = v * 86400000000) ∧
    (v * 3600000000 < 2 ^ 64 → fromHours v = v * 3600000000) ∧
    (v * 60000000 < 2 ^ 64 → fromMinutes v = v * 60000000) ∧
    (v * 1000000 < 2 ^ 64 → fromSeconds v = v * 1000000) ∧
    (v * 1000 < 2 ^ 64 → fromMilliseconds v = v * 1000) := by
  unfold fromDays fromHours fromMinutes fromSeconds fromMilliseconds
  refine ⟨?_, ?_, ?_, ?_, ?_⟩ <;> intro h <;> omega

example : durDays (fromDays 123456) = 123456 := (C19_from 123456 (by decide)).1

/-! ## C56 -/

/-- C56: the printed components add up to the duration in whole milliseconds, and each of them is in range. -/
theorem C56_inspect_parts (d : Nat) :
    let p := durParts d
    ((((p.years * 365 + p.days) * 24 + p.hours) * 60 + p.minutes) * 60 + p.seconds) * 1000 + p.msecs = d / 1000 ∧
    p.days < 365 ∧ p.hours < 24 ∧ p.minutes < 60 ∧ p.seconds < 60 ∧ p.msecs < 1000 := by
  simp only [durParts, durDays, durHours, durMinutes, durSeconds, durMillis]
  omega

/-- The components of a duration of `d` microseconds, largest first: number and unit. -/
def durComponents (d : Nat) : List (Nat × Str) :=
  [(d / 31536000000000, " years".toList), (d / 86400000000 % 365, " days".toList),
   (d / 3600000000 % 24, " hours".toList), (d / 60000000 % 60, " minutes".toList),
   (d / 1000000 % 60, " seconds".toList), (d / 1000 % 1000, "ms".toList)]

/-- The components that are not zero, separated by blanks. -/
def durText (d : Nat) : Str :=
  [' '].intercalate (((durComponents d).filter fun c => c.1 ≠ 0).map fun c => (toString c.1).toList ++ c.2)

theorem durParts_eq (d : Nat) : durParts d = ⟨d / 31536000000000, d / 86400000000 % 365,
    d / 3600000000 % 24, d / 60000000 % 60, d / 1000000 % 60, d / 1000 % 1000⟩ := by
  simp only [durParts, durDays, durHours, durMinutes, durSeconds, durMillis]
  congr 1 <;> omega

/-- C56, durations below one year: the non-zero components separated by blanks. -/
theorem C56_inspect_text_partial (d : Nat) (h : d < 31536000000000) : durInspect d = durText d := by
  unfold durInspect durText durComponents
  rw [durParts_eq]
  have : d / 31536000000000 = 0 := by omega
  simp only [this]
  generalize d / 86400000000 % 365 = a
  generalize d / 3600000000 % 24 = b
  generalize d / 60000000 % 60 = c
  generalize d / 1000000 % 60 = e
  generalize d / 1000 % 1000 = f
  by_cases ha : a = 0 <;> by_cases hb : b = 0 <;> by_cases hc : c = 0 <;> by_cases he : e = 0 <;>
    by_cases hf : f = 0 <;> simp [durPut, ha, hb, hc, he, hf, List.intercalate, List.intersperse]

/-- C56 fails from one year on: the blank behind the years is missing. -/
theorem C56_inspect_years_fails : durInspect 31622400000000 = "1 years1 days".toList ∧
    durText 31622400000000 = "1 years 1 days".toList := by
  constructor <;> rfl

example : durInspect 93784005000 = "1 days 2 hours 3 minutes 4 seconds 5ms".toList := by rfl

end Clip
