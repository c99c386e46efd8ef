import Verif.Model.Rounded

/-!
# Discount factor curves and forward prices in floating point arithmetic

As in `Verif.Model.Rounded` with a rounding after every operation; `exp` and `log` are those of the C library.  The values of the curves at the dates and the
year fractions are arguments.
-/

namespace Dcf.Rounded

section
variable (rnd exp log : ℝ → ℝ)

/-- `DiscountFactorCurve._get_compounding_factor`, `dcf/curves/interestratecurve.py` lines 311-314: the values of the curve at both dates; `same` says whether the
start is the origin object. -/
noncomputable def curveFactor (same : Bool) (y_start y_stop : ℝ) : Py ℝ := if same then .ok y_stop else div rnd y_stop y_start

/-- `continuous_rate(df, period_fraction)`, `dcf/compounding.py` lines 46-55. -/
noncomputable def continuousRate (df period_fraction : ℝ) : Py ℝ :=
  if 0 < df then div rnd (-log df) period_fraction else .error .value

/-- The rate of a discount factor curve over a period, `dcf/curves/curve.py` lines 778-785. -/
noncomputable def curveRate (same : Bool) (y_start y_stop t : ℝ) : Py ℝ := do
  let df ← curveFactor rnd same y_start y_stop
  continuousRate rnd log df t

/-- The function made from a flat yield, `dcf/curves/curve.py` line 616, at the year fraction `t`. -/
noncomputable def yieldFactor (y t : ℝ) : ℝ := exp (rnd (-t * y))

/-- `ForwardCurve.get_forward_price` after the last date with a flat yield, `dcf/curves/curve.py` lines 640-648: the price and the year fraction of the last date,
the year fraction of the value date. -/
noncomputable def forwardPrice (last_price y t_last t : ℝ) : Py ℝ := do
  let df ← div rnd (yieldFactor rnd exp y t) (yieldFactor rnd exp y t_last)
  div rnd last_price df

end

end Dcf.Rounded
