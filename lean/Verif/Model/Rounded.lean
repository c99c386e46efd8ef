import Verif.Model.Interpolation
import Verif.Model.Compounding
import Verif.Model.Plans
import Verif.Model.DayCount

/-!
# Floating point arithmetic

The functions of the package with a rounding after every operation, in the order of the operations of the code.  Elsewhere in the
model numbers are reals: that is the case `rnd = id`.

Simplifications: the exponent is unbounded (no overflow, no subnormal numbers, no `nan`); `sum` adds from left to right with one
rounding each, as before python 3.12; `exp` is an argument.
-/

namespace Dcf

/-- Numbers with `p` significant bits; python floats have `p = 53`. -/
def IsFloat (p : ℕ) (x : ℝ) : Prop := ∃ m e : ℤ, |m| < 2 ^ p ∧ x = m * (2 : ℝ) ^ e

/-- Rounding to nearest with `p` bits (IEEE 754), whatever the rule for ties. -/
structure Rounding (p : ℕ) (rnd : ℝ → ℝ) : Prop where
  float : ∀ x, IsFloat p (rnd x)
  nearest : ∀ x f, IsFloat p f → |rnd x - x| ≤ |f - x|

namespace Rounded

section
variable (rnd : ℝ → ℝ)

/-- `a / b` -/
noncomputable def div (a b : ℝ) : Py ℝ := rnd <$> pyDiv a b

/-- `1.0 / (1.0 + rate_value * maturity_value)`, `dcf/compounding.py` lines 16-23. -/
noncomputable def simpleCompounding (rate_value maturity_value : ℝ) : Py ℝ :=
  div rnd 1 (rnd (1 + rnd (rate_value * maturity_value)))

/-- `(1.0 / df - 1.0) / period_fraction`, `dcf/compounding.py` lines 26-33. -/
noncomputable def simpleRate (df period_fraction : ℝ) : Py ℝ := do
  let q ← div rnd 1 df
  div rnd (rnd (q - 1)) period_fraction

/-- `exp(-1.0 * rate_value * maturity_value)`, `dcf/compounding.py` lines 36-43; `exp` is that of the C library. -/
noncomputable def continuousCompounding (exp : ℝ → ℝ) (rate_value maturity_value : ℝ) : Py ℝ :=
  .ok (exp (rnd (rnd (-1 * rate_value) * maturity_value)))

/-- `linear.__call__`, `dcf/interpolation.py` lines 347-355. -/
noncomputable def linearCall (p : Pts ℝ) (x : ℝ) : Py ℝ := do
  if p.ys.length = 0 then throw .overflow
  if p.ys.length = 1 then pyIndex p.ys 0
  else
    let i ← bisectLeft p.xs x 1 (p.xs.length - 1)
    let yl ← pyIndex p.ys (i - 1)
    let yr ← pyIndex p.ys i
    let xl ← pyIndex p.xs (i - 1)
    let xr ← pyIndex p.xs i
    let q ← div rnd (rnd (rnd (yr - yl) * rnd (xl - x))) (rnd (xl - xr))
    .ok (rnd (yl + q))

/-- `sum(values)` (python): starts from the number `0`. -/
noncomputable def sum (values : List ℝ) : ℝ := values.foldl (fun s v => rnd (s + v)) 0

/-- The discounting of `get_present_value`, `dcf/pricer.py` lines 106-109 and 114: pairs of discount factor and amount. -/
noncomputable def presentValue (flows : List (ℝ × ℝ)) : ℝ := sum rnd (flows.map fun f => rnd (f.1 * f.2))

/-- `amortize`, `dcf/plans.py` lines 43-53. -/
noncomputable def amortize (num : ℤ) (amount : ℝ) : Py (List ℝ) := do
  let x ← div rnd amount (num : ℝ)
  .ok (List.replicate num.toNat x)

/-- The loop of `outstanding`, `dcf/plans.py` lines 101-103. -/
noncomputable def outstandingLoop (sgn : ℝ) : ℝ → List ℝ → List ℝ
  | _, [] => []
  | amount, p :: l => rnd (amount + rnd (sgn * p)) :: outstandingLoop sgn (rnd (amount + rnd (sgn * p))) l

/-- `outstanding`, `dcf/plans.py` lines 87-104. -/
noncomputable def outstanding (plan : List ℝ) (amount : ℝ) (sign : Bool) : List ℝ :=
  amount :: outstandingLoop rnd (if sign then 1 else -1) amount plan.dropLast

/-- `day_count`, `dcf/daycount.py` lines 13 and 48-56. -/
noncomputable def dayCount : PyDate ℝ → PyDate ℝ → Py ℝ
  | .yf s, .yf e => .ok (rnd (e - s))
  | .cal s, .cal e => div rnd ((e - s : ℤ) : ℝ) (36525 / 100)
  | _, _ => .error .type

/-- `linear_scheme`, `dcf/interpolation.py` lines 555-567 and 576-578: `constant` outside does not compute. -/
noncomputable def linearSchemeCall (p : Pts ℝ) (x : ℝ) : Py ℝ := do
  let x0 ← pyIndex p.xs 0
  if x < x0 then leftCall p x
  else
    let xn ← pyLast p.xs
    if xn < x then leftCall p x else linearCall rnd p x

/-- `ZeroRateCurve.get_discount_factor(stop)`, `dcf/curves/curve.py` lines 770-776 and `dcf/curves/interestratecurve.py` lines 341-342, for a curve of
zero rates at times from the origin and the time `t` from the origin to `stop`. -/
noncomputable def zeroDiscount (exp : ℝ → ℝ) (p : Pts ℝ) (t : ℝ) : Py ℝ := do
  if t = 0 then .ok 1
  else
    let ir ← linearSchemeCall rnd p t
    continuousCompounding rnd exp ir t

/-- `get_present_value`, `dcf/pricer.py` lines 106-114, of flows with their times on a zero rate curve. -/
noncomputable def zeroValue (exp : ℝ → ℝ) (p : Pts ℝ) (flows : List (ℝ × ℝ)) : Py ℝ := do
  let values ← pyMap (fun f : ℝ × ℝ => do
    let df ← zeroDiscount rnd exp p f.1
    .ok (rnd (df * f.2))) flows
  .ok (sum rnd values)

/-- `annuity`, `dcf/plans.py` lines 56-69; `pow` is `**` of python for whole exponents. -/
noncomputable def annuity (pow : ℝ → ℕ → ℝ) (num : ℕ) (amount fixed_rate : ℝ) : Py (List ℝ) := do
  let q := rnd (1 + fixed_rate)
  let a ← div rnd (rnd (amount * rnd (q - 1))) (rnd (pow q num - 1))
  .ok ((List.range num).map fun i => rnd (a * pow q i))

/-- The times of the dates of a curve, `DateCurve._update`, `dcf/curves/curve.py` lines 452-455, with the default day count. -/
noncomputable def times (origin : PyDate ℝ) (dates : List (PyDate ℝ)) : Py (List ℝ) := pyMap (dayCount rnd origin) dates

/-- The function of a curve, `dcf/curves/curve.py` lines 243-252, 265 and 452-455, with the default interpolation: lists of equal length, and
different times as `interpolation_scheme.__init__` asserts, `dcf/interpolation.py` lines 547-550. -/
noncomputable def dateFunc (origin : PyDate ℝ) (dates : List (PyDate ℝ)) (data : List ℝ) : Py (Pts ℝ) := do
  if ¬ dates.length = data.length then throw .value
  let ts ← times rnd origin dates
  if ¬ ts.Nodup then throw .assertion
  .ok (Pts.new ts data)

/-- `DateCurve.__call__`, `dcf/curves/curve.py` lines 457-462, with the default day count and the default interpolation `linear_scheme`. -/
noncomputable def dateCall (origin : PyDate ℝ) (dates : List (PyDate ℝ)) (data : List ℝ) (x : PyDate ℝ) : Py ℝ := do
  let f ← dateFunc rnd origin dates data
  let t ← dayCount rnd origin x
  linearSchemeCall rnd f t

/-- `ZeroRateCurve.get_discount_factor(stop)` with the default day count, see `zeroDiscount`. -/
noncomputable def dateDiscount (exp : ℝ → ℝ) (origin : PyDate ℝ) (dates : List (PyDate ℝ)) (data : List ℝ) (x : PyDate ℝ) : Py ℝ := do
  let f ← dateFunc rnd origin dates data
  let t ← dayCount rnd origin x
  zeroDiscount rnd exp f t

/-- `get_present_value`, `dcf/pricer.py` lines 106-114, of flows at dates on a zero rate curve with the default day count. -/
noncomputable def dateValue (exp : ℝ → ℝ) (origin : PyDate ℝ) (dates : List (PyDate ℝ)) (data : List ℝ) (flows : List (PyDate ℝ × ℝ)) : Py ℝ := do
  let values ← pyMap (fun f : PyDate ℝ × ℝ => do
    let df ← dateDiscount rnd exp origin dates data f.1
    .ok (rnd (df * f.2))) flows
  .ok (sum rnd values)

/-- `_simple_bracketing`, `dcf/pricer.py` lines 19-49.  The first number is python's recursion limit. -/
noncomputable def bracket (precision : ℝ) : ℕ → (ℝ → Py ℝ) → ℝ → ℝ → Py (ℝ × ℝ × ℝ)
  | 0, _, _, _ => .error .recursion
  | limit + 1, func, a, b => do
    let fa ← func a
    let fb ← func b
    let o := if fb < fa then (fun x => (fun y => -y) <$> func x, fb, fa) else (func, fa, fb)
    if ¬ (o.2.1 ≤ 0 ∧ 0 ≤ o.2.2) then .error .assertion
    else
      let m := rnd (a + rnd (rnd (b - a) * (1 / 2)))
      if |rnd (b - a)| < precision ∧ |rnd (o.2.2 - o.2.1)| < precision then .ok (a, m, b)
      else do
        let fm ← o.1 m
        let ab := if fm < 0 then (m, b) else (a, m)
        bracket precision limit o.1 ab.1 ab.2

/-- The error function of `get_yield_to_maturity`, `dcf/pricer.py` lines 200-203, of flows with their times. -/
noncomputable def yieldError (exp : ℝ → ℝ) (flows : List (ℝ × ℝ)) (present_value current : ℝ) : Py ℝ := do
  let v ← zeroValue rnd exp (Pts.new [0] [current]) flows
  .ok (rnd (v - present_value))

/-- `get_yield_to_maturity`, `dcf/pricer.py` lines 195-208, of flows with their times. -/
noncomputable def yieldToMaturity (exp : ℝ → ℝ) (limit : ℕ) (flows : List (ℝ × ℝ)) (present_value precision lo hi : ℝ) : Py ℝ := do
  let r ← bracket rnd precision limit (yieldError rnd exp flows present_value) lo hi
  .ok r.2.1

end

end Rounded

end Dcf
