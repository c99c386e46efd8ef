import Verif.Model.Curve

/-!
# Dates of the python package `datetime`

A `datetime.date` is a day number.  The difference of two dates is a `timedelta`, whose `days` the default day count uses
(`dcf/daycount.py` lines 48-53).  A `timedelta` can be added and subtracted; adding one of the strings used as periods
(`'1D'`, `'3M'`, `'1Y'`, `'10Y'`) is a `TypeError`.  Dates are always true, a `timedelta` unless it is zero.
-/

namespace Dcf

/-- What may be added to a `datetime.date`, or tried. -/
inductive NativePeriod
  | delta (days : ℤ)
  | str
  deriving Inhabited

/-- `datetime.date` -/
noncomputable def nativeCal : Cal ℤ NativePeriod where
  dayCount s e := ((e - s : ℤ) : ℝ) / (36525 / 100)
  add d p := match p with
    | .delta n => .ok (d + n)
    | .str => .error .type
  sub d p := match p with
    | .delta n => .ok (d - n)
    | .str => .error .type
  oneDay := .str
  threeMonths := .str
  oneYear := .str
  tenYears := .str
  falsy _ := false
  falsyPeriod p := match p with
    | .delta n => n = 0
    | .str => false

end Dcf
