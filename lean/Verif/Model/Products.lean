import Verif.Model.Cashflow

/-!
# Product builders: `dcf/cashflows/products.py`

Simplification: schedules of `businessdate` are external.  `bond` and `interestRateSwap` take what
`_interest_payment_dates` returns; `plainPaymentDates` is that function for all dates other than `BusinessDate`.
-/

set_option linter.unusedVariables false

namespace Dcf

section
variable {D P : Type} [LinearOrder D] (cal : Cal D P)

/-! ## Schedules -/

/-- `hasattr('adjust', d)`: the second argument has to be a string, a date is not, `dcf/cashflows/products.py` line 47. -/
def hasattrAdjust (d : D) : Py Bool := .error .type

/-- `start_date + period <= payment_date_list[0]`, `dcf/cashflows/products.py` line 42. -/
def scheduleCond (start : D) (period : P) (s : List D × ℕ) : Py Bool := do
  let x ← cal.add start period
  let first ← pyIndex s.1 0
  .ok (decide (x ≤ first))

/-- `payment_date_list.append(end_date - period * cnt); cnt += 1`, `dcf/cashflows/products.py` lines 43-44. -/
def scheduleBody (times : P → ℕ → P) (stop : D) (period : P) (s : List D × ℕ) : Py (List D × ℕ) := do
  let d ← cal.sub stop (times period s.2)
  .ok (s.1 ++ [d], s.2 + 1)

/-- `_interest_payment_dates` for dates that are no `BusinessDate`, `dcf/cashflows/products.py` lines 40-49.  `times` is
`period * cnt`. -/
noncomputable def plainPaymentDates (times : P → ℕ → P) (start stop : D) (period : P) : Py (List D) := do
  let s ← pyWhile (scheduleCond cal start period) (scheduleBody cal times stop period) ([stop], 1)
  let dates := s.1.reverse
  let _ ← pyMap hasattrAdjust dates
  .ok dates

/-! ## Bond and swap -/

/-- The `day_count` argument of the builders: nothing, a function, or a name like the default `'thirty360'`. -/
inductive ProductDayCount (D : Type)
  | none
  | fn (f : D → D → ℝ)
  | name (s : String)

/-- `RateCashFlowList(payment_date_list, amount_list, origin=start_date, ...)` as called by the builders.  A non-empty
string is kept as day count of the payoffs and called when a payoff is evaluated (`dcf/cashflows/payoffs.py` lines 96 and
108); such a payoff is modelled as one that raises `TypeError`. -/
def couponLeg (back : D → D → Py D) (dates : List D) (amounts : List ℝ) (start : D) (dc : ProductDayCount D)
    (fixingOffset payOffset : Option P) (fixedRate : ℝ) (forward : Fwd D) : Py (CFList D P) :=
  match dc with
  | .none => CFList.newRate cal back dates (.list amounts) (some start) none fixingOffset payOffset fixedRate forward
  | .fn f => CFList.newRate cal back dates (.list amounts) (some start) (some f) fixingOffset payOffset fixedRate forward
  | .name s =>
    if s = "" then CFList.newRate cal back dates (.list amounts) (some start) none fixingOffset payOffset fixedRate forward
    else do
      let starts ← accrualStarts back (some start) dates
      let payoffs ← ratePays cal starts dates amounts payOffset fun _ _ _ => .fn fun _ => .error .type
      CFList.ofPayoffs dates payoffs (some start) (.fwd forward) false

/-- `for payback in notional_amount: append(outstanding); outstanding -= payback`, `dcf/cashflows/products.py` lines
97-99. -/
def outstandings : ℝ → List ℝ → List ℝ
  | _, [] => []
  | out, p :: ps => out :: outstandings (out - p) ps

/-- Notional dates, notional flows and notionals of the coupons, `dcf/cashflows/products.py` lines 83-102. -/
noncomputable def notionalPlan (start stop : D) (dates : List D) (notional : NumArg) : Py (List D × List ℝ × List ℝ) :=
  match notional with
  | .scalar n => .ok ([start, stop], [-n, n], List.replicate dates.length n)
  | .list plan =>
    if plan.length = dates.length then
      .ok (start :: dates, -(pySum plan) :: plan, outstandings (pySum plan) plan)
    else .error .value

/-- `bond`, `dcf/cashflows/products.py` lines 52-125.  `sched` is the result of `_interest_payment_dates`. -/
noncomputable def bond (back : D → D → Py D) (sched : Py (List D)) (start stop : D) (notional : NumArg) (dc : ProductDayCount D)
    (fixedRate : ℝ) (forward : Fwd D) (fixingOffset payOffset : Option P) : Py (CF D P) := do
  let dates ← sched
  let plan ← notionalPlan start stop dates notional
  let notionalLeg ← CFList.newFixed plan.1 (.list plan.2.1) (some start)
  let coupons ← couponLeg cal back dates plan.2.2 start dc fixingOffset payOffset fixedRate forward
  CF.newLegs [.flat notionalLeg, .flat coupons]

/-- `interest_rate_swap`, `dcf/cashflows/products.py` lines 128-206.  `sched` and `recSched` are the results of
`_interest_payment_dates` for the two periods. -/
def interestRateSwap (back : D → D → Py D) (sched recSched : Py (List D)) (start : D) (notional : ℝ)
    (dc recDc : ProductDayCount D) (fixedRate recFixedRate : ℝ) (forward recForward : Fwd D)
    (fixingOffset payOffset : Option P) : Py (CF D P) := do
  let dates ← sched
  let payLeg ← couponLeg cal back dates (List.replicate dates.length (-notional)) start dc fixingOffset payOffset fixedRate forward
  let recDates ← recSched
  let recLeg ← couponLeg cal back recDates (List.replicate recDates.length notional) start recDc fixingOffset payOffset
    recFixedRate recForward
  CF.newLegs [.flat payLeg, .flat recLeg]

/-! ## Asset swap -/

/-- Methods defined in the bodies of `CashFlowList` and its subclasses, `dcf/cashflows/cashflow.py`. -/
def cashFlowMethods : List String :=
  ["__init__", "__getitem__", "__call__", "__add__", "__sub__", "__mul__", "__truediv__", "__str__", "__repr__"]

/-- `n * leg`: `int` does not know the class, so the reflected method is looked up.  (`None` if it were an alias of
`__mul__`.) -/
noncomputable def intTimes (n : ℝ) (leg : CF D P) : Py (Option (CF D P)) :=
  if "__rmul__" ∈ cashFlowMethods then (leg.arith .mul n).1 else .error .type

/-- `max(d for d in coupon_leg.domain if d <= p)` -/
def lastBefore (domain : List D) (p : D) : Py D :=
  match (domain.filter (· ≤ p)).max? with
  | some d => .ok d
  | none => .error .value

/-- `asset_swap`, `dcf/cashflows/products.py` lines 209-229.  Cashflow lists have no attribute `fixing_offset`. -/
noncomputable def assetSwap (couponLeg : CF D P) (sched : Py (List D)) : Py (CF D P) := do
  let _payLeg ← intTimes (-1) couponLeg
  let dates ← sched
  let ds ← pyMap (lastBefore couponLeg.domain) dates
  let _amounts ← pyMap (couponLeg.getitem cal) ds
  .error .attribute

end

/-! ## Numeric dates -/

/-- `period * cnt` for numbers; strings are repeated. -/
def FloatPeriod.times : FloatPeriod → ℕ → FloatPeriod
  | .num x, n => .num (x * n)
  | .str, _ => .str

end Dcf
