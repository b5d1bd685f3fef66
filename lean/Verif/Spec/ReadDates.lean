import Verif.Spec.Dates
/-! # Which parts of a date a time format mentions (specification) -/
namespace Clip.Dates
open Calendar

/-- The format consists of ordinary characters and of the conversions `%Y %m %d %H %M %S %F %T %R %%`, and these are the parts
of a date it mentions: year, month, day, hour, minute, second, named by the letters of their conversions. -/
inductive Mentions : Str → List Char → Prop
  | nil : Mentions [] []
  | plain (c : Char) {f ks} : c ≠ '%' → c ≠ '\x00' → Mentions f ks → Mentions (c :: f) ks
  | percent {f ks} : Mentions f ks → Mentions ('%' :: '%' :: f) ks
  | part (k : Char) {f ks} : k ∈ ['Y', 'm', 'd', 'H', 'M', 'S'] → Mentions f ks → Mentions ('%' :: k :: f) (k :: ks)
  | fullDate {f ks} : Mentions f ks → Mentions ('%' :: 'F' :: f) ('Y' :: 'm' :: 'd' :: ks)
  | fullTime {f ks} : Mentions f ks → Mentions ('%' :: 'T' :: f) ('H' :: 'M' :: 'S' :: ks)
  | hourMinute {f ks} : Mentions f ks → Mentions ('%' :: 'R' :: f) ('H' :: 'M' :: ks)

/-- The format mentions everything. -/
def Complete (fmt : Str) : Prop := ∃ ks, Mentions fmt ks ∧ ∀ k ∈ ['Y', 'm', 'd', 'H', 'M', 'S'], k ∈ ks

/-- The format leaves something out. -/
def Lacking (fmt : Str) : Prop := ∃ ks, Mentions fmt ks ∧ ∃ k ∈ ['Y', 'm', 'd', 'H', 'M', 'S'], k ∉ ks

end Clip.Dates
