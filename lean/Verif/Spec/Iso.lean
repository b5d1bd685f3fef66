import Verif.Model.Time
import Verif.Spec.Calendar
/-! # Which texts are read as an ISO 8601 time, and with which meaning -/
namespace Clip.Calendar

/-- A UTC offset: `Z` or `z` at the end of the text, or `±hh:mm` with anything behind it. -/
inductive ZoneText : Str → Int → Prop
  | utc (c : Char) : c = 'Z' ∨ c = 'z' → ZoneText [c] 0
  | east (h m : Nat) (rest : Str) : h ≤ 24 → m ≤ 59 →
      ZoneText ('+' :: (two h ++ ':' :: (two m ++ rest))) (h * 3600 + m * 60)
  | west (h m : Nat) (rest : Str) : h ≤ 24 → m ≤ 59 →
      ZoneText ('-' :: (two h ++ ':' :: (two m ++ rest))) (-(h * 3600 + m * 60))

/-- `YYYY`, `YYYY-MM`, `YYYY-MM-DD` or `YYYY-MM-DDThh:mm:ss[.f[f[f]]]` and a UTC offset (`t` for `T` is fine). -/
inductive TimeRead : Str → Civil → Prop
  | year (y : Nat) : y < 10000 → TimeRead (four y) { year := y }
  | month (y mo : Nat) : y < 10000 → 1 ≤ mo → mo ≤ 12 →
      TimeRead (four y ++ '-' :: two mo) { year := y, month := mo }
  | day (y mo d : Nat) : y < 10000 → 1 ≤ mo → mo ≤ 12 → 1 ≤ d → d ≤ 31 →
      TimeRead (dateText y mo d) { year := y, month := mo, day := d }
  | time (y mo d h mi s : Nat) (t : Char) (ds : List Nat) (zone : Str) (off : Int) :
      y < 10000 → 1 ≤ mo → mo ≤ 12 → 1 ≤ d → d ≤ 31 → h ≤ 24 → mi ≤ 59 → s ≤ 59 →
      t = 'T' ∨ t = 't' → (∀ a ∈ ds, a < 10) → ds.length ≤ 3 → ZoneText zone off →
      TimeRead (dateText y mo d ++ t :: (two h ++ ':' :: (two mi ++ ':' :: (two s ++ (fracText ds ++ zone)))))
        { year := y, month := mo, day := d, hour := h, minute := mi, second := s,
          millisecond := fracMillis ds, offset := off }

end Clip.Calendar
