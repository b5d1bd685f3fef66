import Verif.Model.Format
/-!
# Model of `StringUtil::formatNumberMetric` (`src/utils/stringutil_impl.h`)

The value is a real number: the rounding of the multiplication or division by the power of ten is not modelled; that of `%.1f`
is (`fixedText`).  Infinities and NaN are not modelled.
-/
namespace Clip
noncomputable section

open Classical in
/-- stringutil_impl.h:37-89 `StringUtil::formatNumberMetric`. -/
def formatNumberMetric (value : ℝ) : Str :=
  let a := |value|
  if a = 0 then ['0']
  else if a < 1 / 1000000000 then fixedText 1 (value * 1000000000000) ++ ['p']
  else if a < 1 / 1000000 then fixedText 1 (value * 1000000000) ++ ['n']
  else if a < 1 / 1000 then fixedText 1 (value * 1000000) ++ ['μ']
  else if a < 1 / 10 then fixedText 1 (value * 1000) ++ ['m']
  else if a < 10 then fixedText 2 value
  else if a < 1000 then fixedText 1 value
  else if a < 1000000 then fixedText 1 (value / 1000) ++ ['K']
  else if a < 1000000000 then fixedText 1 (value / 1000000) ++ ['M']
  else if a < 1000000000000 then fixedText 1 (value / 1000000000) ++ ['G']
  else fixedText 1 (value / 1000000000000) ++ ['T']

end
end Clip
