import Verif.Py

/-! # Model of `dcf/compounding.py`

Rates, maturities, factors and numbers of periods are real numbers. -/

namespace Dcf

/-- `simple_compounding`, `dcf/compounding.py` lines 16-23. -/
noncomputable def simpleCompounding (rate_value maturity_value : ℝ) : Py ℝ :=
  pyDiv 1 (1 + rate_value * maturity_value)

/-- `simple_rate`, `dcf/compounding.py` lines 26-33. -/
noncomputable def simpleRate (df period_fraction : ℝ) : Py ℝ := do
  let q ← pyDiv 1 df
  pyDiv (q - 1) period_fraction

/-- `continuous_compounding`, `dcf/compounding.py` lines 36-43 (overflow of `exp` is outside the
model). -/
noncomputable def continuousCompounding (rate_value maturity_value : ℝ) : Py ℝ :=
  .ok (Real.exp (-1 * rate_value * maturity_value))

/-- `continuous_rate`, `dcf/compounding.py` lines 46-55. -/
noncomputable def continuousRate (df period_fraction : ℝ) : Py ℝ := do
  let l ← pyLog df
  pyDiv (-l) period_fraction

/-- `periodic_compounding`, `dcf/compounding.py` lines 58-67. -/
noncomputable def periodicCompounding (rate_value maturity_value period_value : ℝ) : Py ℝ := do
  let ex := -period_value * maturity_value
  let q ← pyDiv rate_value period_value
  pyPow (1 + q) ex

/-- `periodic_rate`, `dcf/compounding.py` lines 70-78. -/
noncomputable def periodicRate (df period_fraction frequency : ℝ) : Py ℝ := do
  let ex ← pyDiv (-1) (period_fraction * frequency)
  let p ← pyPow df ex
  .ok ((p - 1) * frequency)

/-- `annually_compounding`, `dcf/compounding.py` lines 81-88. -/
noncomputable def annuallyCompounding (r t : ℝ) : Py ℝ := periodicCompounding r t 1

/-- `semi_compounding`, `dcf/compounding.py` lines 91-98. -/
noncomputable def semiCompounding (r t : ℝ) : Py ℝ := periodicCompounding r t 2

/-- `quarterly_compounding`, `dcf/compounding.py` lines 101-108. -/
noncomputable def quarterlyCompounding (r t : ℝ) : Py ℝ := periodicCompounding r t 4

/-- `monthly_compounding`, `dcf/compounding.py` lines 111-118. -/
noncomputable def monthlyCompounding (r t : ℝ) : Py ℝ := periodicCompounding r t 12

/-- `daily_compounding`, `dcf/compounding.py` lines 121-128. -/
noncomputable def dailyCompounding (r t : ℝ) : Py ℝ := periodicCompounding r t 365

end Dcf
