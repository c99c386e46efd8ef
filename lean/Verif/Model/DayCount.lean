import Verif.Py

/-! # Model of `dcf/daycount.py` -/

namespace Dcf

/-- A date as accepted by the default day count: a plain number (year fraction) or a calendar
date.  Calendar dates of `datetime` and `businessdate` enter only through day differences, so a
calendar date is its day number. -/
inductive PyDate (K : Type)
  | yf (t : K)
  | cal (days : ℤ)

/-- `day_count`, `dcf/daycount.py` lines 13 and 48-56.  `diff_in_days` (businessdate) and
`timedelta.days` (datetime) are both the difference of day numbers.  Subtracting a calendar date
and a number is a `TypeError`. -/
def defaultDayCount {K : Type} [Field K] : PyDate K → PyDate K → Py K
  | .yf s, .yf e => .ok (e - s)
  | .cal s, .cal e => .ok (((e - s : ℤ) : K) / (36525 / 100))
  | _, _ => .error .type

end Dcf
