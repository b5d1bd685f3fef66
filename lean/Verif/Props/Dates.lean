import Verif.Props.Time
import Verif.Props.Format
import Verif.Spec.Dates
/-! # Property C119: the labels of time axes -/
set_option linter.unusedSimpArgs false
namespace Clip
open Calendar Dates

namespace DateLemmas

/-- The earlier date. -/
def Before (a b : Date) : Prop :=
  a.year < b.year ∨ a.year = b.year ∧ (a.month < b.month ∨ a.month = b.month ∧ a.day < b.day)

theorem before_next (d : Date) : Before d (next d) := by
  unfold next Before; split
  · simp
  · split <;> simp

theorem before_trans {a b c : Date} (h : Before a b) (h' : Before b c) : Before a c := by
  unfold Before at *; omega

theorem before_of_lt {n m : Nat} (h : n < m) : Before (afterEpoch n) (afterEpoch m) := by
  induction m with
  | zero => omega
  | succ m ih =>
    rcases Nat.lt_succ_iff_lt_or_eq.1 h with h' | rfl
    · exact before_trans (ih h') (before_next _)
    · exact before_next _

theorem monthLength_le (y m : Nat) : monthLength y m ≤ 31 := by
  unfold monthLength; split <;> (try split) <;> omega

theorem digit_lt : ∀ a < 10, ∀ b < 10, a < b → digit a < digit b := by decide

theorem two_lt {a b : Nat} (ha : a < 100) (hb : b < 100) (s t : Str) (h : a < b ∨ a = b ∧ s < t) :
    two a ++ s < two b ++ t := by
  simp only [two, List.cons_append, List.nil_append, List.cons_lt_cons_iff]
  rcases h with h | ⟨rfl, h⟩
  · rcases Nat.lt_or_ge (a / 10) (b / 10) with h' | h'
    · exact .inl (digit_lt _ (by omega) _ (by omega) h')
    · have : a / 10 = b / 10 := by omega
      exact .inr ⟨by rw [this], .inl (digit_lt _ (by omega) _ (by omega) (by omega))⟩
  · exact .inr ⟨rfl, .inr ⟨rfl, h⟩⟩

theorem four_eq (a : Nat) (h : a < 10000) : four a = two (a / 100) ++ two (a % 100) := by
  have h1 : a / 100 / 10 = a / 1000 := by omega
  have h2 : a % 100 / 10 = a / 10 % 10 := by omega
  have h3 : a % 100 % 10 = a % 10 := by omega
  simp [four, two, h1, h2, h3]

theorem four_lt {a b : Nat} (ha : a < 10000) (hb : b < 10000) (s t : Str) (h : a < b ∨ a = b ∧ s < t) :
    four a ++ s < four b ++ t := by
  rw [four_eq a ha, four_eq b hb, List.append_assoc, List.append_assoc]
  refine two_lt (by omega) (by omega) _ _ ?_
  by_cases e : a / 100 = b / 100
  · exact .inr ⟨e, two_lt (by omega) (by omega) _ _ (by rcases h with h | ⟨h, h'⟩; exacts [.inl (by omega), .inr ⟨by omega, h'⟩])⟩
  · exact .inl (by rcases h with h | ⟨h, h'⟩ <;> omega)

theorem cons_lt {c : Char} {s t : Str} (h : s < t) : c :: s < c :: t := List.cons_lt_cons_iff.2 (.inr ⟨rfl, h⟩)

theorem two_lt_end {a b : Nat} (ha : a < 100) (hb : b < 100) (h : a < b) : two a < two b := by
  have := two_lt ha hb [] [] (.inl h); simpa using this

theorem digits {d : Date} (h : d.Valid) : d.month < 100 ∧ d.day < 100 := by
  have := monthLength_le d.year d.month
  obtain ⟨_, h2, _, h4⟩ := h
  omega

end DateLemmas
open DateLemmas

/-- C119: every number of seconds since 1970 is one instant, and only one. -/
theorem C119_instant (t : ℤ) (h : 0 ≤ t) : ∃! i, Since t i := by
  refine ⟨⟨afterEpoch (t / 86400).toNat, (t % 86400 / 3600).toNat, (t % 3600 / 60).toNat, (t % 60).toNat⟩,
    ⟨by simp only; omega, by simp only; omega, by simp only; omega, _, rfl, by simp only; omega⟩, ?_⟩
  rintro ⟨d, hh, mm, ss⟩ ⟨h1, h2, h3, n, h4, h5⟩
  simp only at h1 h2 h3 h4 h5
  have : n = (t / 86400).toNat := by omega
  subst h4
  rw [← this]
  have a : (t % 86400 / 3600).toNat = hh := by omega
  have b : (t % 3600 / 60).toNat = mm := by omega
  have c : (t % 60).toNat = ss := by omega
  rw [a, b, c]

/-- C119: the label of a tick on a time axis is the instant its value stands for (in seconds since 1970, what is left of the
last second does not count), written in the configured format. -/
theorem C119_label (stod : Str → Option (ℝ × Nat)) (strftime : Str → ℤ → Str) (hs : Standard strftime)
    (k n : Nat) (s : Str) (x : ℝ) (h : stod s = some (x, n)) (h0 : 0 ≤ x) (h1 : x * 1000000 < 2 ^ 64)
    (i : Instant) (hi : Since ⌊x⌋ i) (fmt text : Str) (hw : Written i fmt text) (hl : text.length < 256) :
    (FormatSpec.datetime fmt).label stod strftime k s = some text := by
  rw [(C70_effect stod strftime k n s x h).2.2.2.1 fmt h0 h1, hs _ i fmt text hi hw hl]

/-- The format used if none is given writes `YYYY-MM-DD hh:mm:ss`. -/
theorem written_default (i : Instant) (hy : i.date.year ≤ 9999) : Written i "%Y-%m-%d %H:%M:%S".toList (stamp i) := by
  show Written i ['%','Y','-','%','m','-','%','d',' ','%','H',':','%','M',':','%','S'] _
  have h : stamp i = four i.date.year ++ ('-' :: (two i.date.month ++ ('-' :: (two i.date.day ++ (' ' :: (two i.hour ++
    (':' :: (two i.minute ++ (':' :: (two i.second ++ [])))))))))) := by
    simp [stamp, dateText]
  rw [h]
  exact .year hy (.plain _ (by decide) (.month (.plain _ (by decide) (.day (.plain _ (by decide) (.hour
    (.plain _ (by decide) (.minute (.plain _ (by decide) (.second .nil))))))))))

/-- The format that ISO 8601 readers understand. -/
theorem written_iso (i : Instant) (hy : i.date.year ≤ 9999) :
    Written i "%Y-%m-%dT%H:%M:%SZ".toList
      (timeText i.date.year i.date.month i.date.day i.hour i.minute i.second ++ ['Z']) := by
  show Written i ['%','Y','-','%','m','-','%','d','T','%','H',':','%','M',':','%','S','Z'] _
  have h : timeText i.date.year i.date.month i.date.day i.hour i.minute i.second ++ ['Z'] =
    four i.date.year ++ ('-' :: (two i.date.month ++ ('-' :: (two i.date.day ++ ('T' :: (two i.hour ++
    (':' :: (two i.minute ++ (':' :: (two i.second ++ ['Z'])))))))))) := by
    simp [timeText, dateText]
  rw [h]
  exact .year hy (.plain _ (by decide) (.month (.plain _ (by decide) (.day (.plain _ (by decide) (.hour
    (.plain _ (by decide) (.minute (.plain _ (by decide) (.second (.plain _ (by decide) .nil)))))))))))

/-- C119: `datetime` without a format labels a tick with `YYYY-MM-DD hh:mm:ss`. -/
theorem C119_default (stod : Str → Option (ℝ × Nat)) (strftime : Str → ℤ → Str) (hs : Standard strftime)
    (readFile : Str → Option Str) (rest : List Expr) (k n : Nat) (s : Str) (x : ℝ) (h : stod s = some (x, n))
    (h0 : 0 ≤ x) (h1 : x * 1000000 < 2 ^ 64) (i : Instant) (hi : Since ⌊x⌋ i) (hy : i.date.year ≤ 9999) :
    ∃ f, formatConfigure stod readFile (.literal "datetime".toList :: rest) = .ok f ∧
      f.label stod strftime k s = some (stamp i) := by
  refine ⟨_, (C70_words stod readFile rest).2.2.1, ?_⟩
  exact C119_label stod strftime hs k n s x h h0 h1 i hi _ _ (written_default i hy)
    (by simp [stamp, dateText, two, four])

/-- C119: labels in the ISO 8601 format are read back as the instant they label: the reader accepts the label, and the time
stamp of what it has read is the value of the tick in microseconds, but for the fraction of a second. -/
theorem C119_iso (stod : Str → Option (ℝ × Nat)) (strftime : Str → ℤ → Str) (hs : Standard strftime)
    (k n : Nat) (s : Str) (x : ℝ) (h : stod s = some (x, n)) (h0 : 0 ≤ x) (h1 : x * 1000000 < 2 ^ 64)
    (i : Instant) (hi : Since ⌊x⌋ i) (hy : i.date.year ≤ 9999) :
    ∃ text c, (FormatSpec.datetime "%Y-%m-%dT%H:%M:%SZ".toList).label stod strftime k s = some text ∧
      iso8601Parse text = .ok (some c) ∧ (unixMicros c : ℤ) = ⌊x⌋ * 1000000 := by
  refine ⟨_, ⟨i.date.year, i.date.month, i.date.day, i.hour, i.minute, i.second, 0, 0⟩,
    C119_label stod strftime hs k n s x h h0 h1 i hi _ _ (written_iso i hy)
      (by simp [timeText, dateText, two, four]), ?_, ?_⟩
  · obtain ⟨hh, hm, hsec, m, hd, _⟩ := hi
    have hv := (afterEpoch_valid m).1
    rw [← hd] at hv
    have := C18_iso8601_roundtrip_partial i.date i.hour i.minute i.second [] .utc hv hy (by omega) (by omega) (by omega)
      (by simp) (by simp) (by decide) (by decide)
    simpa [fracText, Zone.text, fracMillis, Zone.seconds] using this
  · obtain ⟨_, _, _, m, hd, ht⟩ := hi
    have hx : ((⌊x⌋ * 1000000 : ℤ) : ℝ) < 2 ^ 64 := by
      push_cast
      have := Int.floor_le x
      nlinarith
    have hx' : (⌊x⌋ * 1000000 : ℤ) < 2 ^ 64 := by exact_mod_cast hx
    have h0' : 0 ≤ ⌊x⌋ := Int.floor_nonneg.2 h0
    obtain ⟨N, hN⟩ := Int.eq_ofNat_of_zero_le (show (0 : ℤ) ≤ ⌊x⌋ * 1000000 by positivity)
    rw [C17_civil_to_unix m i.hour i.minute i.second 0 0 i.date hd.symm N (by rw [show ((N : ℕ) : ℤ) = ⌊x⌋ * 1000000 from hN.symm, ht]; push_cast; ring) (by omega)]
    exact hN.symm

/-- C119: labels are in alphabetical order exactly if the seconds are in order of time: an earlier second has a label that
sorts before, and two values have the same label just when they lie in the same second. -/
theorem C119_order (t t' : ℤ) (i i' : Instant) (hi : Since t i) (hi' : Since t' i') (hy : i.date.year ≤ 9999)
    (hy' : i'.date.year ≤ 9999) :
    (t < t' ↔ stamp i < stamp i') ∧ (t = t' ↔ stamp i = stamp i') := by
  have key : ∀ (t t' : ℤ) (i i' : Instant), Since t i → Since t' i' → i.date.year ≤ 9999 → i'.date.year ≤ 9999 →
      t < t' → stamp i < stamp i' := by
    rintro t t' ⟨d, hh, mm, ss⟩ ⟨d', hh', mm', ss'⟩ ⟨a1, a2, a3, n, a4, a5⟩ ⟨b1, b2, b3, n', b4, b5⟩ hy hy' hlt
    simp only at a1 a2 a3 a4 a5 b1 b2 b3 b4 b5 hy hy'
    have va := digits (a4 ▸ (afterEpoch_valid n).1 : d.Valid)
    have vb := digits (b4 ▸ (afterEpoch_valid n').1 : d'.Valid)
    simp only [stamp, dateText, List.append_assoc, List.cons_append]
    have hn : n < n' ∨ n = n' ∧ (hh < hh' ∨ hh = hh' ∧ (mm < mm' ∨ mm = mm' ∧ ss < ss')) := by omega
    rcases hn with hn | ⟨rfl, ht⟩
    · have hb := before_of_lt hn
      rw [← a4, ← b4] at hb
      refine four_lt (by omega) (by omega) _ _ ?_
      rcases hb with hb | ⟨e, hb⟩
      · exact .inl hb
      refine .inr ⟨e, cons_lt (two_lt va.1 vb.1 _ _ ?_)⟩
      rcases hb with hb | ⟨e, hb⟩
      · exact .inl hb
      exact .inr ⟨e, cons_lt (two_lt va.2 vb.2 _ _ (.inl hb))⟩
    · have hd : d = d' := a4.trans b4.symm
      subst hd
      refine four_lt (by omega) (by omega) _ _ (.inr ⟨rfl, cons_lt (two_lt va.1 va.1 _ _ (.inr ⟨rfl,
        cons_lt (two_lt va.2 va.2 _ _ (.inr ⟨rfl, cons_lt (two_lt (by omega) (by omega) _ _ ?_)⟩))⟩))⟩)
      rcases ht with ht | ⟨e, ht⟩
      · exact .inl ht
      refine .inr ⟨e, cons_lt (two_lt (by omega) (by omega) _ _ ?_)⟩
      rcases ht with ht | ⟨e, ht⟩
      · exact .inl ht
      exact .inr ⟨e, cons_lt (two_lt_end (by omega) (by omega) ht)⟩
  have irr : ∀ s : Str, ¬ s < s := fun s => List.lt_irrefl s
  have asym : ∀ s u : Str, s < u → ¬ u < s := fun s u h h' => List.lt_irrefl s (List.lt_trans h h')
  rcases lt_trichotomy t t' with h | h | h
  · have := key t t' i i' hi hi' hy hy' h
    exact ⟨⟨fun _ => this, fun _ => h⟩, ⟨fun e => absurd e h.ne, fun e => absurd (e ▸ this) (irr _)⟩⟩
  · subst h
    have : i = i' := by
      have h0 : 0 ≤ t := by obtain ⟨_, _, _, n, _, ht⟩ := hi; omega
      exact (C119_instant t h0).unique hi hi'
    subst this
    exact ⟨⟨fun h => absurd h (lt_irrefl _), fun h => absurd h (irr _)⟩, ⟨fun _ => rfl, fun _ => rfl⟩⟩
  · have := key t' t i' i hi' hi hy' hy h
    exact ⟨⟨fun h' => absurd h (asymm h'), fun h' => absurd this (asym _ _ h')⟩,
      ⟨fun e => absurd e h.ne', fun e => absurd (e ▸ this) (irr _)⟩⟩

/-! ## The hypotheses are met -/

/-- A `strftime` that knows these conversions. -/
def exStrftime (fmt : Str) (t : ℤ) : Str :=
  go ⟨afterEpoch (t / 86400).toNat, (t % 86400 / 3600).toNat, (t % 3600 / 60).toNat, (t % 60).toNat⟩ fmt
where
  go (i : Instant) : Str → Str
  | '%' :: '%' :: f => '%' :: go i f
  | '%' :: 'Y' :: f => four i.date.year ++ go i f
  | '%' :: 'y' :: f => two (i.date.year % 100) ++ go i f
  | '%' :: 'm' :: f => two i.date.month ++ go i f
  | '%' :: 'd' :: f => two i.date.day ++ go i f
  | '%' :: 'H' :: f => two i.hour ++ go i f
  | '%' :: 'M' :: f => two i.minute ++ go i f
  | '%' :: 'S' :: f => two i.second ++ go i f
  | '%' :: 'F' :: f => dateText i.date.year i.date.month i.date.day ++ go i f
  | '%' :: 'T' :: f => two i.hour ++ ':' :: two i.minute ++ ':' :: two i.second ++ go i f
  | '%' :: 'R' :: f => two i.hour ++ ':' :: two i.minute ++ go i f
  | '%' :: 'D' :: f => two i.date.month ++ '/' :: two i.date.day ++ '/' :: two (i.date.year % 100) ++ go i f
  | '%' :: f => go i f
  | c :: f => c :: go i f
  | [] => []

theorem exStrftime_standard : Standard exStrftime := by
  intro t i fmt text hi hw hlen
  clear hlen
  have h0 : 0 ≤ t := by obtain ⟨_, _, _, n, _, ht⟩ := hi; omega
  have e : (⟨afterEpoch (t / 86400).toNat, (t % 86400 / 3600).toNat, (t % 3600 / 60).toNat, (t % 60).toNat⟩ : Instant) = i :=
    (C119_instant t h0).unique ⟨by simp only; omega, by simp only; omega, by simp only; omega, _, rfl, by simp only; omega⟩ hi
  show exStrftime.go _ fmt = text
  rw [e]
  induction hw with
  | nil => rfl
  | plain c hc _ ih => rw [exStrftime.go.eq_def]; split <;> simp_all
  | _ => simp_all [exStrftime.go]

/-- 29 February 2016, 12:34:56 UTC is 1456749296 seconds after the epoch. -/
theorem exSince : Since 1456749296 ⟨⟨2016, 2, 29⟩, 12, 34, 56⟩ := by
  refine ⟨by decide, by decide, by decide, 16860, ?_, by norm_num⟩
  have h := dayNumber_afterEpoch 16860
  obtain ⟨n, hn⟩ := exists_afterEpoch ⟨2016, 2, 29⟩ ⟨by decide, by decide, by decide, by decide⟩ (by decide)
  have h2 := dayNumber_afterEpoch n
  rw [hn] at h2
  have h3 : dayNumber ⟨2016, 2, 29⟩ = 16860 := by decide +kernel
  rw [h3] at h2
  rw [h2, hn]

example : (FormatSpec.datetime "%d/%m at %R".toList).label (fun _ => some (1456749296.75, 0)) exStrftime 3 [] =
    some "29/02 at 12:34".toList := by
  refine C119_label _ _ exStrftime_standard 3 0 [] 1456749296.75 rfl (by norm_num) (by norm_num)
    ⟨⟨2016, 2, 29⟩, 12, 34, 56⟩ ?_ _ _ ?_ (by decide)
  · have : ⌊(1456749296.75 : ℝ)⌋ = 1456749296 := by rw [Int.floor_eq_iff]; norm_num
    rw [this]; exact exSince
  · exact .day (.plain _ (by decide) (.month (.plain _ (by decide) (.plain _ (by decide) (.plain _ (by decide)
      (.plain _ (by decide) (.hourMinute .nil)))))))

end Clip
