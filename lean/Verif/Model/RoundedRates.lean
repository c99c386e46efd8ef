import Verif.Model.RoundedLegs

/-!
# Rates over many periods and fair rates in floating point arithmetic

As in `Verif.Model.Rounded` with a rounding after every operation, in the order of the operations of the code.
-/

namespace Dcf

namespace Rounded

section
variable (rnd : ℝ → ℝ)

/-- `ShortRateCurve._get_compounding_rate`, `dcf/curves/interestratecurve.py` lines 365-378, over the rates and year fractions of the steps (the last one up to
`stop`) and the year fraction of the whole period. -/
noncomputable def shortAverage (steps : List (ℝ × ℝ)) (total : ℝ) : Py ℝ :=
  div rnd (steps.foldl (fun rate q => rnd (rate + rnd (q.1 * q.2))) 0) total

/-- `df` in `CashRateCurve._get_compounding_rate`, `dcf/curves/interestratecurve.py` lines 421-429, over the rates and year fractions of the steps. -/
noncomputable def cashFactor : ℝ → List (ℝ × ℝ) → Py ℝ
  | df, [] => .ok df
  | df, q :: l => do
    let x ← simpleCompounding rnd q.1 q.2
    cashFactor (rnd (df * x)) l

/-- `CashRateCurve._get_compounding_rate`, `dcf/curves/interestratecurve.py` lines 417-430, and `continuous_rate`, `dcf/compounding.py` lines 46-55; `log` is that
of the C library. -/
noncomputable def cashRate (log : ℝ → ℝ) (steps : List (ℝ × ℝ)) (total : ℝ) : Py ℝ := do
  let df ← cashFactor rnd 1 steps
  if 0 < df then div rnd (-log df) total else .error .value

/-- A coupon to be priced: discount factor, forward rate, year fraction and amount. -/
structure FairFlow where
  df : ℝ
  forward : ℝ
  yf : ℝ
  amount : ℝ

/-- `err` in `get_fair_rate`, `dcf/pricer.py` lines 355-358. -/
noncomputable def fairError (flows : List FairFlow) (present_value current : ℝ) : ℝ :=
  rnd (presentValue rnd (flows.map fun q => (q.df, coupon rnd current q.forward q.yf q.amount)) - present_value)

/-- `get_fair_rate`, `dcf/pricer.py` lines 351-365. -/
noncomputable def fairRate (limit : ℕ) (flows : List FairFlow) (present_value precision lo hi : ℝ) : Py ℝ := do
  let r ← bracket rnd precision limit (fun current => .ok (fairError rnd flows present_value current)) lo hi
  .ok r.2.1

end

end Rounded

end Dcf
