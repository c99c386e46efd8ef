import Verif.Model.OptionPricing

/-! # Payoffs and cashflow lists: `dcf/cashflows/{payoffs,cashflow,contingent}.py` -/

set_option linter.unusedVariables false

namespace Dcf

/-! ## Payoffs -/

/-- What is handed to a payoff: nothing, a forward curve, or an option payoff model.  (Objects with a `payoff_model`
attribute, i.e. other cashflow lists, are not passed to payoffs here.) -/
inductive ModelArg (D : Type)
  | fwd (f : Fwd D)
  | model (m : OptModel D)

/-- A `RateCashFlowPayOff`, `dcf/cashflows/payoffs.py` lines 57-105.  `fixed_rate` can be set to `None`. -/
structure RatePay (D P : Type) where
  start : D
  stop : D
  amount : ℝ
  dayCount : Option (D → D → ℝ)
  fixingOffset : Option P
  fixedRate : Option ℝ

/-- The details of a rate cashflow; absent keys are `none`. -/
structure RateDetails (D : Type) where
  cashflow : ℝ
  notional : ℝ
  start : D
  stop : D
  yearFraction : ℝ
  forward : Option ℝ
  fixing : Option D

/-- An `OptionCashFlowPayOff`, `dcf/cashflows/payoffs.py` lines 148-216. -/
structure OptPay (D : Type) where
  expiry : D
  amount : ℝ
  strike : Option ℝ
  isPut : Bool

/-- A `ContingentRateCashFlowPayOff`, `dcf/cashflows/payoffs.py` lines 320-385. -/
structure ContingentRatePay (D P : Type) extends RatePay D P where
  floor : Option ℝ
  cap : Option ℝ

/-- A number or a list of numbers. -/
inductive NumArg
  | scalar (x : ℝ)
  | list (l : List ℝ)

/-- `if isinstance(amount_list, (int, float)): amount_list = [amount_list] * n` -/
def NumArg.expand (a : NumArg) (n : ℕ) : List ℝ :=
  match a with
  | .scalar x => List.replicate n x
  | .list l => l

section
variable {D P : Type} (cal : Cal D P)

/-- `date -= offset` guarded by `if offset:` -/
def Cal.minus (offset : Option P) (d : D) : Py D :=
  match offset with
  | some p => if cal.falsyPeriod p then .ok d else cal.sub d p
  | none => .ok d

/-- The rate read off a forward curve by a rate payoff, `dcf/cashflows/payoffs.py` lines 130-135.  `None` is not
callable. -/
def Fwd.rate (f : Fwd D) (date : D) : Py ℝ :=
  match f with
  | .cash r _ => r date
  | .num x => .ok x
  | .fn g => g date
  | .price _ call _ => call date
  | .none => .error .type

/-- `if forward_curve` for the argument of a payoff: models are true. -/
noncomputable def ModelArg.truthy : ModelArg D → Bool
  | .fwd f => f.truthy
  | .model _ => true

/-- `hasattr(forward_curve, 'forward_curve')`, `dcf/cashflows/payoffs.py` lines 128-129 and 389. -/
def ModelArg.curve : ModelArg D → Fwd D
  | .fwd f => f
  | .model m => m.forward

/-- `self.day_count = day_count or default_day_count`, `dcf/cashflows/payoffs.py` line 96. -/
def RatePay.tau (p : RatePay D P) : D → D → ℝ := p.dayCount.getD cal.dayCount

/-- Forward rate and fixing date, `dcf/cashflows/payoffs.py` lines 120-142; absent if the forward curve is false. -/
noncomputable def RatePay.forwardAt (p : RatePay D P) (arg : ModelArg D) : Py (Option ℝ × Option D) :=
  if arg.truthy then do
    let fixing ← cal.minus p.fixingOffset p.start
    let forward ← arg.curve.rate fixing
    .ok (some forward, some fixing)
  else .ok (none, none)

/-- `RateCashFlowPayOff.details`, `dcf/cashflows/payoffs.py` lines 107-145. -/
noncomputable def RatePay.details (p : RatePay D P) (arg : ModelArg D) : Py (RateDetails D) := do
  let yf := p.tau cal p.start p.stop
  let fwd ← p.forwardAt cal arg
  match p.fixedRate with
  | some fixed =>
    .ok { cashflow := (fixed + fwd.1.getD 0) * yf * p.amount
          notional := p.amount
          start := p.start
          stop := p.stop
          yearFraction := yf
          forward := fwd.1
          fixing := fwd.2 }
  | none => .error .type

/-- `OptionCashFlowPayOff.details()['cashflow']`, `dcf/cashflows/payoffs.py` lines 218-238.  Curves and numbers have no
`get_call_value`. -/
noncomputable def OptPay.cashflow (o : OptPay D) (arg : ModelArg D) : Py ℝ :=
  match arg with
  | .fwd f => if f.truthy then .error .attribute else .ok 0
  | .model m => do
    let v ← if o.isPut then m.putValue cal o.expiry o.strike else m.callValue cal o.expiry o.strike
    let _ ← m.details cal o.expiry o.strike
    .ok (o.amount * v)

/-- `OptionStrategyCashFlowPayOff.__init__`, `dcf/cashflows/payoffs.py` lines 282-296.  `zip` stops at the shorter list,
the sort is stable. -/
noncomputable def strategyOptions (expiry : D) (callAmounts : NumArg) (callStrikes : List ℝ) (putAmounts : NumArg)
    (putStrikes : List ℝ) : List (OptPay D) :=
  let puts := ((putAmounts.expand putStrikes.length).zip putStrikes).map fun p => OptPay.mk expiry p.1 (some p.2) true
  let calls := ((callAmounts.expand callStrikes.length).zip callStrikes).map fun p => OptPay.mk expiry p.1 (some p.2) false
  (puts ++ calls).insertionSort fun a b => a.strike.getD 0 ≤ b.strike.getD 0

/-- `OptionStrategyCashFlowPayOff.details()['cashflow']`, `dcf/cashflows/payoffs.py` lines 298-317. -/
noncomputable def strategyCashflow (options : List (OptPay D)) (arg : ModelArg D) : Py ℝ := do
  let cfs ← pyMap (fun o => o.cashflow cal arg) options
  match arg, options with
  | .model m, o :: _ => do
    let _ ← m.details cal o.expiry none
    .ok (pySum cfs)
  | _, _ => .ok (pySum cfs)

/-- `details[key]` -/
def pyKey {α : Type} (o : Option α) : Py α :=
  match o with
  | some a => .ok a
  | none => .error .key

/-- Floorlet or caplet, `dcf/cashflows/payoffs.py` lines 399-404 and 410-414. -/
noncomputable def optlet (m : OptModel D) (value : D → Option ℝ → Py ℝ) (fixing : D) (scale : ℝ) (strike : Option ℝ) : Py ℝ :=
  match strike with
  | some k => do
    let _ ← m.details cal fixing (some k)
    let v ← value fixing (some k)
    .ok (v * scale)
  | none => .ok 0

/-- `ContingentRateCashFlowPayOff.details()['cashflow']`, `dcf/cashflows/payoffs.py` lines 387-427. -/
noncomputable def ContingentRatePay.cashflow (p : ContingentRatePay D P) (arg : ModelArg D) : Py ℝ := do
  let details ← p.toRatePay.details cal (.fwd arg.curve)
  match arg with
  | .fwd _ => .ok details.cashflow
  | .model m => do
    let fixing ← pyKey details.fixing
    let scale := details.yearFraction * details.notional
    let floorlet ← optlet cal m (m.putValue cal) fixing scale p.floor
    let caplet ← optlet cal m (m.callValue cal) fixing scale p.cap
    .ok (details.cashflow + floorlet - caplet)

/-- What a cashflow list stores at a date: a number, one of the payoff classes, or any other callable. -/
inductive PayOff (D P : Type)
  | num (x : ℝ)
  | fixed (amount : ℝ)
  | rate (p : RatePay D P)
  | contingentRate (p : ContingentRatePay D P)
  | option (o : OptPay D)
  | strategy (options : List (OptPay D))
  | fn (f : ModelArg D → Py ℝ)

/-- Calling a payoff, `dcf/cashflows/payoffs.py` lines 21-22 and the `details` methods; numbers are used as they are
(`dcf/cashflows/cashflow.py` line 135). -/
noncomputable def PayOff.eval (p : PayOff D P) (arg : ModelArg D) : Py ℝ :=
  match p with
  | .num x => .ok x
  | .fixed a => .ok a
  | .rate p => do .ok (← p.details cal arg).cashflow
  | .contingentRate p => p.cashflow cal arg
  | .option o => o.cashflow cal arg
  | .strategy os => strategyCashflow cal os arg
  | .fn f => f arg

end

/-! ## Cashflow lists -/

/-- A `CashFlowList` or one of its flat subclasses.  `arg` is what payoffs are called with: `payoff_model` of contingent
lists, `forward_curve` of rate lists, else `None` (`dcf/cashflows/cashflow.py` lines 136-141, `contingent.py` line 77).
`hasModel` says whether the object has an attribute `payoff_model`. -/
structure CFList (D P : Type) where
  origin? : Option D
  domain : List D
  flows : Dict D (PayOff D P)
  arg : ModelArg D
  hasModel : Bool

section
variable {D P : Type} [LinearOrder D] (cal : Cal D P)

/-- `CashFlowList.__init__` after expanding numbers, `dcf/cashflows/cashflow.py` lines 120-128. -/
def CFList.ofPayoffs (dates : List D) (payoffs : List (PayOff D P)) (origin : Option D) (arg : ModelArg D)
    (hasModel : Bool) : Py (CFList D P) :=
  if payoffs.length = dates.length then
    .ok ⟨origin, dates, Dict.ofPairs (dates.zip payoffs), arg, hasModel⟩
  else .error .value

/-- `CashFlowList.__init__`, `dcf/cashflows/cashflow.py` lines 86-128. -/
def CFList.new (dates : List D) (amounts : NumArg) (origin : Option D) : Py (CFList D P) :=
  CFList.ofPayoffs dates ((amounts.expand dates.length).map .num) origin (.fwd .none) false

/-- `CashFlowList.origin`, `dcf/cashflows/cashflow.py` lines 50-55. -/
def CFList.origin (l : CFList D P) : Option D := l.origin?.or l.domain.head?

/-- `CashFlowList.__getitem__` on a single date, `dcf/cashflows/cashflow.py` lines 130-142 and `contingent.py`
lines 69-77. -/
noncomputable def CFList.getitem (l : CFList D P) (d : D) : Py ℝ :=
  match l.flows.get d with
  | some p => p.eval cal l.arg
  | none => .ok 0

/-- `CashFlowList.__getitem__` on a list of dates, `dcf/cashflows/cashflow.py` lines 131-132. -/
noncomputable def CFList.getitems (l : CFList D P) (ds : List D) : Py (List ℝ) := pyMap (l.getitem cal) ds

/-- `CashFlowList.__call__`, `dcf/cashflows/cashflow.py` lines 144-156.  `none` is a call without argument (or `None`). -/
noncomputable def CFList.call (l : CFList D P) (arg : Option (ModelArg D)) : Py (CFList D P) := do
  let arg := match arg with
    | some (.fwd .none) => l.arg
    | some a => a
    | none => l.arg
  let flows ← pyMap (fun d => match l.flows.get d with
    | some p => p.eval cal arg
    | none => .ok 0) l.domain
  CFList.new l.domain (.list flows) l.origin?

/-- `FixedCashFlowList.__init__`, `dcf/cashflows/cashflow.py` lines 254-273, on dates. -/
def CFList.newFixed (dates : List D) (amounts : NumArg) (origin : Option D) : Py (CFList D P) :=
  CFList.ofPayoffs dates ((amounts.expand dates.length).map .fixed) origin (.fwd .none) false

/-- Start dates of the accrual periods, `dcf/cashflows/cashflow.py` lines 326-334.  `back d0 d1` is
`d0 - (d1 - d0)`. -/
def accrualStarts (back : D → D → Py D) (origin : Option D) (dates : List D) : Py (List D) :=
  match origin with
  | some o => .ok (o :: dates.dropLast)
  | none =>
    match dates with
    | d0 :: d1 :: _ => do
      let s ← back d0 d1
      .ok (s :: dates.dropLast)
    | [d] => .ok [d]
    | [] => .error .unboundLocal

/-- The loop of `RateCashFlowList.__init__`, `dcf/cashflows/cashflow.py` lines 336-347 (and `contingent.py` lines
258-269): periods moved by the pay offset, `zip` stops at the shortest list. -/
def ratePays (starts dates : List D) (amounts : List ℝ) (payOffset : Option P) (mk : D → D → ℝ → PayOff D P) :
    Py (List (PayOff D P)) :=
  pyMap (fun x : D × D × ℝ => do
    let e ← cal.minus payOffset x.2.1
    let s ← cal.minus payOffset x.1
    .ok (mk s e x.2.2)) (starts.zip (dates.zip amounts))

/-- `RateCashFlowList.__init__`, `dcf/cashflows/cashflow.py` lines 283-351. -/
def CFList.newRate (back : D → D → Py D) (dates : List D) (amounts : NumArg) (origin : Option D)
    (dayCount : Option (D → D → ℝ)) (fixingOffset payOffset : Option P) (fixedRate : ℝ) (forward : Fwd D) :
    Py (CFList D P) := do
  let starts ← accrualStarts back origin dates
  let payoffs ← ratePays cal starts dates (amounts.expand dates.length) payOffset fun s e a =>
    .rate ⟨s, e, a, dayCount, fixingOffset, some fixedRate⟩
  CFList.ofPayoffs dates payoffs origin (.fwd forward) false

/-- `cf.fixed_rate` -/
def PayOff.fixedRate : PayOff D P → Py (Option ℝ)
  | .rate p => .ok p.fixedRate
  | .contingentRate p => .ok p.fixedRate
  | _ => .error .attribute

/-- `RateCashFlowList.fixed_rate` and `ContingentRateCashFlowList.fixed_rate`, `dcf/cashflows/cashflow.py` lines 353-357
and `contingent.py` lines 276-280. -/
noncomputable def CFList.fixedRate (l : CFList D P) : Py (Option ℝ) := do
  let rates ← pyMap (fun p : D × PayOff D P => p.2.fixedRate) l.flows
  match rates.dedup with
  | [r] => .ok r
  | _ => .ok none

/-- Setter of `fixed_rate` on one payoff. -/
def PayOff.setFixedRate (v : Option ℝ) : PayOff D P → PayOff D P
  | .rate p => .rate { p with fixedRate := v }
  | .contingentRate p => .contingentRate { p with fixedRate := v }
  | p => p

/-- Setter of `fixed_rate`, `dcf/cashflows/cashflow.py` lines 359-362 and `contingent.py` lines 282-285 (on lists made of
rate payoffs). -/
def CFList.setFixedRate (l : CFList D P) (v : Option ℝ) : CFList D P :=
  { l with flows := l.flows.map fun p => (p.1, p.2.setFixedRate v) }

/-- `ContingentCashFlowList.__init__`, `dcf/cashflows/contingent.py` lines 25-67.  Without payoffs the list of payoffs is
the single default payoff. -/
def CFList.newContingent (dates : List D) (payoffs : Option (List (PayOff D P))) (origin : Option D) (arg : ModelArg D) :
    Py (CFList D P) :=
  CFList.ofPayoffs dates (payoffs.getD [.fn fun _ => .ok 0]) origin arg true

/-- A boolean or a list of booleans. -/
inductive BoolArg
  | scalar (x : Bool)
  | list (l : List Bool)

def BoolArg.expand (a : BoolArg) (n : ℕ) : List Bool :=
  match a with
  | .scalar x => List.replicate n x
  | .list l => l

/-- `OptionCashflowList.__init__`, `dcf/cashflows/contingent.py` lines 88-131. -/
def CFList.newOption (dates : List D) (amounts strikes : NumArg) (isPut : BoolArg) (fixingOffset payOffset : Option P)
    (origin : Option D) (arg : ModelArg D) : Py (CFList D P) := do
  let n := dates.length
  let payoffs ← pyMap (fun x : D × ℝ × ℝ × Bool => do
    let e ← cal.minus payOffset x.1
    let e ← cal.minus fixingOffset e
    .ok (PayOff.option ⟨e, x.2.1, some x.2.2.1, x.2.2.2⟩))
    (dates.zip ((amounts.expand n).zip ((strikes.expand n).zip (isPut.expand n))))
  CFList.newContingent dates (some payoffs) origin arg

/-- `OptionStrategyCashflowList.__init__`, `dcf/cashflows/contingent.py` lines 152-199.  The message of the `KeyError` for
more than ten options is itself a `TypeError` (`'%d' % n + m`). -/
noncomputable def CFList.newStrategy (dates : List D) (callAmounts : NumArg) (callStrikes : List ℝ) (putAmounts : NumArg)
    (putStrikes : List ℝ) (fixingOffset payOffset : Option P) (origin : Option D) (arg : ModelArg D) :
    Py (CFList D P) := do
  if 10 < putStrikes.length + callStrikes.length then .error .type
  else
    let payoffs ← pyMap (fun d => do
      let e ← cal.minus payOffset d
      let e ← cal.minus fixingOffset e
      .ok (PayOff.strategy (strategyOptions e callAmounts callStrikes putAmounts putStrikes))) dates
    CFList.newContingent dates (some payoffs) origin arg

/-- Start dates of the accrual periods of `ContingentRateCashFlowList`, `dcf/cashflows/contingent.py` lines 248-256:
`if origin` in place of `if origin is not None`. -/
def contingentStarts (back : D → D → Py D) (origin : Option D) (dates : List D) : Py (List D) :=
  match origin with
  | some o =>
    if cal.falsy o then
      match dates with
      | [] => .error .unboundLocal
      | _ => .ok dates
    else .ok (o :: dates.dropLast)
  | none => accrualStarts back none dates

/-- `ContingentRateCashFlowList.__init__`, `dcf/cashflows/contingent.py` lines 212-274. -/
def CFList.newContingentRate (back : D → D → Py D) (dates : List D) (amounts : NumArg) (origin : Option D)
    (dayCount : Option (D → D → ℝ)) (fixingOffset payOffset : Option P) (fixedRate : ℝ) (cap floor : Option ℝ)
    (arg : ModelArg D) : Py (CFList D P) := do
  let starts ← contingentStarts cal back origin dates
  let payoffs ← ratePays cal starts dates (amounts.expand dates.length) payOffset fun s e a =>
    .contingentRate ⟨⟨s, e, a, dayCount, fixingOffset, some fixedRate⟩, floor, cap⟩
  CFList.newContingent dates (some payoffs) origin arg

end

/-! ## Leg lists -/

/-- Any cashflow list: flat, or a `CashFlowLegList` (which can be nested) with its stored domain and origin. -/
inductive CF (D P : Type)
  | flat (l : CFList D P)
  | legs (ls : List (CF D P)) (domain : List D) (origin : Option D)

section
variable {D P : Type} [LinearOrder D] (cal : Cal D P)

/-- `domain` property. -/
def CF.domain : CF D P → List D
  | .flat l => l.domain
  | .legs _ d _ => d

/-- `origin` property, `dcf/cashflows/cashflow.py` lines 50-55. -/
def CF.origin : CF D P → Option D
  | .flat l => l.origin
  | .legs _ d o => o.or d.head?

/-- `min(leg.origin for leg in legs)`: no legs is a `ValueError`, comparing `None` a `TypeError`. -/
def minOrigin : List (Option D) → Py (Option D)
  | [] => .error .value
  | [o] => .ok o
  | o :: os => do
    match ← minOrigin os, o with
    | some a, some b => .ok (some (min b a))
    | _, _ => .error .type

/-- `CashFlowLegList.__init__`, `dcf/cashflows/cashflow.py` lines 208-223.  (Legs that are no cashflow lists, a
`ValueError`, cannot be expressed here.) -/
def CF.newLegs (ls : List (CF D P)) : Py (CF D P) := do
  let origin ← minOrigin (ls.map CF.origin)
  .ok (.legs ls (sortedSet (ls.map CF.domain).flatten) origin)

mutual
/-- `__getitem__` on a single date, `dcf/cashflows/cashflow.py` lines 130-142 and 225-232. -/
noncomputable def CF.getitem : CF D P → D → Py ℝ
  | .flat l, d => l.getitem cal d
  | .legs ls _ _, d => do .ok (pySum (← CF.legItems ls d))

/-- `float(leg[item]) for leg in legs if item in leg.domain` -/
noncomputable def CF.legItems : List (CF D P) → D → Py (List ℝ)
  | [], _ => .ok []
  | l :: ls, d =>
    if d ∈ l.domain then do
      let x ← l.getitem d
      let xs ← CF.legItems ls d
      .ok (x :: xs)
    else CF.legItems ls d
end

/-- `__call__` on a leg list, `dcf/cashflows/cashflow.py` lines 144-156: inherited, reads the stored zeros. -/
noncomputable def CF.call (c : CF D P) (arg : Option (ModelArg D)) : Py (CFList D P) :=
  match c with
  | .flat l => l.call cal arg
  | .legs _ d o => CFList.new d (.list (List.replicate d.length 0)) o

/-- The attribute `_origin`. -/
def CF.origin? : CF D P → Option D
  | .flat l => l.origin?
  | .legs _ _ o => o

/-- `FixedCashFlowList(cashflow_list)`, `dcf/cashflows/cashflow.py` lines 264-273. -/
noncomputable def CF.fix (c : CF D P) (origin : Option D) : Py (CFList D P) := do
  let amounts ← pyMap (c.getitem cal) c.domain
  CFList.newFixed c.domain (.list amounts) (cal.or origin c.origin?)

/-! ## Arithmetic -/

/-- The arithmetic methods of cashflow lists. -/
inductive ListOp
  | add | sub | mul | div

/-- `x.__op__(y)` of the float `x` for a number `y`; the value is dropped. -/
noncomputable def ListOp.onFloat (op : ListOp) (x y : ℝ) : Py ℝ :=
  match op with
  | .add => .ok (x + y)
  | .sub => .ok (x - y)
  | .mul => .ok (x * y)
  | .div => pyDiv x y

/-- `payoff.__op__(y)`; payoff objects (and functions) have no such methods. -/
noncomputable def PayOff.arith (op : ListOp) (y : ℝ) : PayOff D P → Py ℝ
  | .num x => op.onFloat x y
  | _ => .error .attribute

/-- `CashFlowList.__add__`, `__sub__`, `__mul__`, `__truediv__`, `dcf/cashflows/cashflow.py` lines 158-172: the results are
dropped, there is no `return`.  `none` is python's `None`; the second component is the list afterwards. -/
noncomputable def CFList.arith (op : ListOp) (y : ℝ) (l : CFList D P) : Py (Option (CFList D P)) × CFList D P :=
  ((fun _ => none) <$> pyMap (fun p : D × PayOff D P => p.2.arith op y) l.flows, l)

mutual
/-- The same methods on any cashflow list; `CashFlowLegList`: lines 234-248. -/
noncomputable def CF.arith (op : ListOp) (y : ℝ) : CF D P → Py (Option (CF D P)) × CF D P
  | .flat l => (Option.map .flat <$> (l.arith op y).1, .flat (l.arith op y).2)
  | .legs ls d o => ((fun _ => none) <$> (CF.arithLegs op y ls).1, .legs (CF.arithLegs op y ls).2 d o)

/-- `for leg in self._legs: leg.__op__(other)` -/
noncomputable def CF.arithLegs (op : ListOp) (y : ℝ) : List (CF D P) → Py Unit × List (CF D P)
  | [] => (.ok (), [])
  | l :: ls =>
    match CF.arith op y l with
    | (.ok _, l') => ((CF.arithLegs op y ls).1, l' :: (CF.arithLegs op y ls).2)
    | (.error e, l') => (.error e, l' :: ls)
end

end

end Dcf
