import Verif.Model.Rounded

/-!
# Coupons, legs, accrued interest and basis point values in floating point arithmetic

As in `Verif.Model.Rounded` with a rounding after every operation, in the order of the operations of the code.
-/

namespace Dcf

namespace Rounded

section
variable (rnd : ℝ → ℝ)

/-- `(self.fixed_rate + forward) * yf * self.amount`, `dcf/cashflows/payoffs.py` line 144. -/
noncomputable def coupon (fixed_rate forward yf amount : ℝ) : ℝ := rnd (rnd (rnd (fixed_rate + forward) * yf) * amount)

/-- `get_present_value` of a `CashFlowLegList`, `dcf/pricer.py` lines 93-95: per leg the pairs of discount factor and amount. -/
noncomputable def legsValue (legs : List (List (ℝ × ℝ))) : ℝ := sum rnd (legs.map (presentValue rnd))

/-- `flow * (1. - remaining / total)`, `dcf/pricer.py` line 288. -/
noncomputable def accruedFlow (flow remaining total : ℝ) : Py ℝ := do
  let q ← div rnd remaining total
  .ok (rnd (flow * rnd (1 - q)))

/-- The loop of `get_interest_accrued`, `dcf/pricer.py` lines 279-289, over the flows, remaining and total year fractions of the coupons that have started
and are not paid. -/
noncomputable def accrued (coupons : List (ℝ × ℝ × ℝ)) : Py ℝ := do
  let l ← pyMap (fun c : ℝ × ℝ × ℝ => accruedFlow rnd c.1 c.2.1 c.2.2) coupons
  .ok (sum rnd l)

/-- `(sh - pv) / shift * .0001`, `dcf/pricer.py` line 430; the literal is the float nearest to 1/10000. -/
noncomputable def basisPoint (pv sh shift : ℝ) : Py ℝ := do
  let q ← div rnd (rnd (sh - pv)) shift
  .ok (rnd (q * rnd (1 / 10000)))

/-- `get_basis_point_value`, `dcf/pricer.py` lines 418-430, of flows with their times on a zero rate curve with one rate: the spread is added to the rate,
`dcf/curves/curve.py` lines 750-752. -/
noncomputable def flatBasisPoint (exp : ℝ → ℝ) (rate : ℝ) (flows : List (ℝ × ℝ)) (shift : ℝ) : Py ℝ := do
  let pv ← zeroValue rnd exp (Pts.new [0] [rnd (rate + 0)]) flows
  let sh ← zeroValue rnd exp (Pts.new [0] [rnd (rate + shift)]) flows
  basisPoint rnd pv sh shift

end

end Rounded

end Dcf
