import Verif.Lemmas.Iso
/-! # Property C18, continued: exactly the texts that are read as a time -/
namespace Clip
open Calendar IsoRead

/-- C18: the texts that are read as a time, and their meaning: exactly those of `TimeRead`. -/
theorem C18_accepts_iff (s : Str) (c : Civil) : iso8601Parse s = .ok (some c) ↔ TimeRead s c := by
  by_cases h : IsoShort s
  · rw [iso_short s h]
    refine ⟨fun e => (nomatch e), fun hr => ?_⟩
    obtain ⟨y, mo, hy, h1, h2, rfl⟩ := h
    exfalso
    rw [timeRead_iff y hy] at hr
    rcases hr with ⟨e, -⟩ | ⟨n, r, hn, e, hr⟩
    · cases e
    · obtain ⟨rfl, rfl⟩ := two_inj (show mo < 100 by omega) (by omega) (List.cons.inj e).2
      rcases hr with ⟨e, -⟩ | ⟨n, r, hn, e, hr⟩
      · cases e
      · simp [two] at e
  · obtain ⟨r, h1, h2⟩ := reads_iso s h
    rw [h1]
    refine Iff.trans ⟨fun e => ?_, fun e => by rw [e]⟩ (h2 c)
    injection e

/-- C18: reading is undefined (the program reads behind the end of the text) for the texts `YYYY-MM-` with a
month from 01 to 12 and for no others; violated by the code there. -/
theorem C18_undefined_iff (s : Str) :
    iso8601Parse s = .undefined ↔ ∃ y mo, y < 10000 ∧ 1 ≤ mo ∧ mo ≤ 12 ∧ s = four y ++ '-' :: (two mo ++ ['-']) := by
  constructor
  · intro h
    by_cases hs : IsoShort s
    · exact hs
    · obtain ⟨r, h1, -⟩ := reads_iso s hs
      rw [h1] at h
      cases h
  · exact iso_short s

/-- C18: every other text is refused; there is no exception and no other error. -/
theorem C18_refuses_iff (s : Str) :
    iso8601Parse s = .ok none ↔
      (¬ ∃ y mo, y < 10000 ∧ 1 ≤ mo ∧ mo ≤ 12 ∧ s = four y ++ '-' :: (two mo ++ ['-'])) ∧ ∀ c, ¬ TimeRead s c := by
  constructor
  · intro h
    refine ⟨fun hs => ?_, fun c hc => ?_⟩
    · rw [iso_short s hs] at h; cases h
    · rw [(C18_accepts_iff s c).2 hc] at h; cases h
  · rintro ⟨hs, hc⟩
    obtain ⟨r, h1, h2⟩ := reads_iso s hs
    rw [h1]
    cases r with
    | none => rfl
    | some c => exact absurd ((h2 c).1 rfl) (hc c)

/-- A text has one meaning at most. -/
theorem C18_one_meaning (s : Str) (c c' : Civil) (h : TimeRead s c) (h' : TimeRead s c') : c = c' := by
  have := (C18_accepts_iff s c).2 h
  rw [(C18_accepts_iff s c').2 h'] at this
  injection this with this
  injection this with this
  exact this.symm

example : iso8601Parse "2015-07".toList = .ok (some { year := 2015, month := 7 }) :=
  (C18_accepts_iff _ _).2 (.month 2015 7 (by decide) (by decide) (by decide))

example : iso8601Parse "2015-13".toList = .ok none := rfl
example : iso8601Parse "2015-12-3".toList = .ok none := rfl

end Clip
