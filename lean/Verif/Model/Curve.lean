import Verif.Model.Interpolation
import Verif.Model.Compounding

/-!
# Model of `dcf/curves/curve.py`: `Curve`, `DateCurve`, `ForwardCurve`

Simplifications:
* curve values are numbers; `None` results of an interpolation are kept as `none` and arithmetic on
  them is a `TypeError`;
* containers are lists (python keeps tuples apart from lists in `DateCurve.domain`);
* the interpolation argument is one of the classes of `dcf/interpolation.py`, or a triple of them
  (`interpolation_scheme`); curve specific registries `INTERPOLATIONS` are empty, as in the package (functions written by the
  user: `Model/OwnInterp.lean`).
-/

namespace Dcf

/-- A number where python may have `None`; using `None` in arithmetic is a `TypeError`. -/
def pyNum (v : Option ℝ) : Py ℝ :=
  match v with
  | some y => .ok y
  | none => .error .type

/-- `Curve._update`, `dcf/curves/curve.py` lines 254-265: points sorted by `x`, interpolation built.
Returns the new domain and the interpolation function. -/
noncomputable def fitFunc (spec : FuncSpec) (xs ys : List ℝ) : Py (List ℝ × Func) := do
  let pts := sortPairs (xs.zip ys)
  let f ← Func.new spec (pts.map Prod.fst) (pts.map Prod.snd)
  .ok (pts.map Prod.fst, f)

/-- `Curve`, `dcf/curves/curve.py` lines 145-353. -/
structure Curve where
  domain : List ℝ
  /-- `_interpolation`, `none` is the class default `linear_scheme` -/
  interp : Option FuncSpec
  func : Func

/-- `Curve.__init__` with point lists, `dcf/curves/curve.py` lines 240-252. -/
noncomputable def Curve.new (domain data : List ℝ) (interp : Option FuncSpec) : Py Curve := do
  if ¬ domain.length = data.length then throw .value
  let (d, f) ← fitFunc (interp.getD linearScheme) domain data
  .ok ⟨d, interp, f⟩

/-- `Curve.__call__` on a single point, `dcf/curves/curve.py` lines 288-291. -/
noncomputable def Curve.call (c : Curve) (x : ℝ) : Py (Option ℝ) := c.func.call x

/-- Value as a number in arithmetic. -/
noncomputable def Curve.num (c : Curve) (x : ℝ) : Py ℝ := do pyNum (← c.call x)

/-- `Curve.__getitem__`, `dcf/curves/curve.py` lines 273-276. -/
noncomputable def Curve.getitem (c : Curve) (x : ℝ) : Py (Option ℝ) :=
  if x ∈ c.domain then c.call x else .error .key

/-- The point lists after an assignment, `dcf/curves/curve.py` lines 281-285. -/
def setPoint {D : Type} [DecidableEq D] (domain : List D) (data : List ℝ) (key : D) (value : ℝ) :
    List D × List ℝ :=
  if key ∈ domain then (domain, data.set (domain.idxOf key) value)
  else (domain ++ [key], data ++ [value])

/-- `Curve.__setitem__`, `dcf/curves/curve.py` lines 278-286. -/
noncomputable def Curve.setitem (c : Curve) (key value : ℝ) : Py Curve := do
  let data ← pyMap c.num c.domain
  let (xs, ys) := setPoint c.domain data key value
  let (d, f) ← fitFunc (c.interp.getD linearScheme) xs ys
  .ok ⟨d, c.interp, f⟩

/-- `Curve.__add__`, `__sub__`, `__mul__`, `dcf/curves/curve.py` lines 293-306. -/
noncomputable def Curve.binop (op : ℝ → ℝ → ℝ) (f g : Curve) : Py Curve := do
  let x_list := sortedSet (f.domain ++ g.domain)
  let y_list ← pyMap (fun x => do .ok (op (← f.num x) (← g.num x))) x_list
  Curve.new x_list y_list f.interp

noncomputable def Curve.add : Curve → Curve → Py Curve := Curve.binop (· + ·)
noncomputable def Curve.sub : Curve → Curve → Py Curve := Curve.binop (· - ·)
noncomputable def Curve.mul : Curve → Curve → Py Curve := Curve.binop (· * ·)

/-- `any(not other(x) for x in x_list)`: stops at the first zero (or `None`). -/
noncomputable def anyZero (g : ℝ → Py (Option ℝ)) : List ℝ → Py Bool
  | [] => .ok false
  | x :: l => do
    let v ← g x
    if v = none ∨ v = some 0 then .ok true else anyZero g l

/-- `Curve.__truediv__`, `__div__`, `dcf/curves/curve.py` lines 308-317. -/
noncomputable def Curve.div (f g : Curve) : Py Curve := do
  let x_list := sortedSet (f.domain ++ g.domain)
  if ← anyZero g.call x_list then throw .zeroDivision
  let y_list ← pyMap (fun x => do pyDiv (← f.num x) (← g.num x)) x_list
  Curve.new x_list y_list f.interp

/-- `Curve(domain, data)` with `data` a plain curve, `dcf/curves/curve.py` lines 231-238. -/
noncomputable def Curve.resample (domain : List ℝ) (data : Curve) (interp : Option FuncSpec) :
    Py Curve := do
  let ys ← pyMap data.num domain
  let i ← keepInterp interp data.interp
  Curve.new domain ys i

/-- `Curve(curve)`, `dcf/curves/curve.py` lines 228-238. -/
noncomputable def Curve.copy (c : Curve) (interp : Option FuncSpec) : Py Curve :=
  Curve.resample c.domain c interp

/-- `Curve(**curve.kwargs)`: the arguments of `kwargs`, `dcf/curves/curve.py` lines 153-164 (`data` are the values on the
domain, the interpolation is given by name). -/
noncomputable def Curve.rebuild (c : Curve) : Py Curve := do
  let ys ← pyMap c.num c.domain
  let i ← keepInterp none c.interp
  Curve.new c.domain ys i

/-- `Curve.shifted`, `dcf/curves/curve.py` lines 341-353. -/
noncomputable def Curve.shifted (c : Curve) (delta : ℝ) : Py Curve :=
  Curve.resample (if delta ≠ 0 then c.domain.map (· + delta) else c.domain) c none

/-! ## Dates -/

/-- What the code uses of a date type `D` (with periods of type `P`): the default day count of
`dcf/daycount.py`, adding and subtracting a period (`date + '1D'` is a `TypeError` for floats and
`datetime` dates, works for `BusinessDate`) and the period constants of the package. -/
structure Cal (D P : Type) where
  dayCount : D → D → ℝ
  add : D → P → Py D
  sub : D → P → Py D
  /-- `'1D'`, `'1d'`: `DateCurve._TIME_SHIFT` -/
  oneDay : P
  /-- `'3M'`: `RateCurve._FORWARD_TENOR` -/
  threeMonths : P
  /-- `'1Y'`, `'1y'`: `CreditCurve._FORWARD_TENOR` -/
  oneYear : P
  /-- `'10y'` -/
  tenYears : P
  /-- dates that are false in a boolean context (the float `0.0`; no calendar date is) -/
  falsy : D → Bool
  /-- periods that are false in a boolean context (the number `0`) -/
  falsyPeriod : P → Bool

/-- `a or b` for optional dates. -/
def Cal.or {D P : Type} (cal : Cal D P) (a b : Option D) : Option D :=
  match a with
  | some d => if cal.falsy d then b else a
  | none => b

/-- A `day_count` argument.  `func f r` is a python function `f` whose name is registered in
`DateCurve.DAY_COUNT` as `r` (normally not at all); `named r` is a string, registered as `r`, or a
callable without a name (then `r = some f`). -/
inductive DayCountArg (D : Type)
  | default
  | func (f : D → D → ℝ) (registered : Option (D → D → ℝ))
  | named (registered : Option (D → D → ℝ))

/-- `kwargs.day_count`, `dcf/curves/curve.py` lines 153-164: a function is replaced by its name
(`getattr(attr, '__name__', attr)`). -/
def DayCountArg.kwarg {D : Type} : DayCountArg D → DayCountArg D
  | .func _ r => .named r
  | d => d

/-- `day_count or other.kwargs.day_count` -/
def DayCountArg.or {D : Type} : DayCountArg D → DayCountArg D → DayCountArg D
  | .default, e => e
  | d, _ => d

/-- `DateCurve.day_count(start, end)`, `dcf/curves/curve.py` lines 500-505.  An unregistered string
is called: `TypeError`. -/
def DayCountArg.eval {D P : Type} (cal : Cal D P) (d : DayCountArg D) (start stop : D) : Py ℝ :=
  match d with
  | .default => .ok (cal.dayCount start stop)
  | .func f _ => .ok (f start stop)
  | .named (some f) => .ok (f start stop)
  | .named none => .error .type

/-- `DateCurve`, `dcf/curves/curve.py` lines 356-578. -/
structure DateCurve (D : Type) where
  domain : List D
  /-- `_origin` -/
  origin? : Option D
  /-- `_day_count` -/
  dc : DayCountArg D
  /-- `_interpolation` -/
  interp : Option FuncSpec
  /-- the class default `_INTERPOLATION` -/
  dflt : FuncSpec
  fixings : Dict D ℝ
  func : Func

section DateCurve
variable {D P : Type} [DecidableEq D] (cal : Cal D P)

/-- `DateCurve.origin`, `dcf/curves/curve.py` lines 444-450. -/
def DateCurve.origin (c : DateCurve D) : Option D := c.origin?.or c.domain.head?

/-- `self.origin` used as a date: `None` is a `TypeError` in every day count. -/
def pyDate (o : Option D) : Py D :=
  match o with
  | some d => .ok d
  | none => .error .type

/-- `self.day_count(start, end)` -/
def DateCurve.dayCount (c : DateCurve D) (start stop : D) : Py ℝ := c.dc.eval cal start stop

/-- `self.day_count(x)`, `dcf/curves/curve.py` lines 498-499. -/
def DateCurve.time (c : DateCurve D) (x : D) : Py ℝ := do
  let o ← pyDate c.origin
  c.dayCount cal o x

/-- `DateCurve._update`, `dcf/curves/curve.py` lines 452-455; origin and day count are those before
the update. -/
noncomputable def DateCurve.update (c : DateCurve D) (domain : List D) (data : List ℝ) :
    Py (DateCurve D) := do
  let flt ← pyMap (c.time cal) domain
  let (_, f) ← fitFunc (c.interp.getD c.dflt) flt data
  .ok { c with domain := domain, func := f }

/-- `DateCurve.__init__` with point lists, `dcf/curves/curve.py` lines 432-436, 240-252. -/
noncomputable def DateCurve.new (domain : List D) (data : List ℝ) (interp : Option FuncSpec)
    (origin : Option D) (dc : DayCountArg D) (dflt : FuncSpec) : Py (DateCurve D) := do
  if ¬ domain.length = data.length then throw .value
  let raw : DateCurve D := ⟨domain, origin, dc, interp, dflt, [], .base ⟨.no, ⟨[], []⟩, none⟩⟩
  raw.update cal domain data

/-- `DateCurve.__call__` on a single date, `dcf/curves/curve.py` lines 457-462. -/
noncomputable def DateCurve.call (c : DateCurve D) (x : D) : Py (Option ℝ) :=
  match c.fixings.get x with
  | some y => .ok (some y)
  | none => do c.func.call (← c.time cal x)

/-- Value as a number in arithmetic. -/
noncomputable def DateCurve.num (c : DateCurve D) (x : D) : Py ℝ := do pyNum (← c.call cal x)

/-- `Curve.__setitem__` on a date curve, `dcf/curves/curve.py` lines 278-286.  `call` is the
(possibly overridden) `__call__`. -/
noncomputable def DateCurve.setitemWith (c : DateCurve D) (call : D → Py ℝ) (key : D) (value : ℝ) :
    Py (DateCurve D) := do
  let data ← pyMap call c.domain
  let (xs, ys) := setPoint c.domain data key value
  c.update cal xs ys

noncomputable def DateCurve.setitem (c : DateCurve D) (key : D) (value : ℝ) : Py (DateCurve D) :=
  c.setitemWith cal (c.num cal) key value

/-- `c.fixings[x] = y` -/
def DateCurve.fix (c : DateCurve D) (x : D) (y : ℝ) : DateCurve D :=
  { c with fixings := c.fixings.set x y }

/-- `DateCurve(domain, data)` with `data` a date curve, `dcf/curves/curve.py` lines 426-436. -/
noncomputable def DateCurve.resample (domain : List D) (data : DateCurve D) (interp : Option FuncSpec)
    (origin : Option D) (dc : DayCountArg D) : Py (DateCurve D) := do
  let ys ← pyMap (data.num cal) domain
  let i ← keepInterp interp data.interp
  DateCurve.new cal domain ys i (cal.or origin data.origin?) (dc.or data.dc.kwarg)
    data.dflt

/-- `DateCurve(**curve.kwargs)`, `dcf/curves/curve.py` lines 153-164 and 366-436. -/
noncomputable def DateCurve.rebuild (c : DateCurve D) : Py (DateCurve D) := do
  let ys ← pyMap (c.num cal) c.domain
  let i ← keepInterp none c.interp
  DateCurve.new cal c.domain ys i c.origin? c.dc.kwarg c.dflt

/-- `DateCurve(curve)`, `dcf/curves/curve.py` lines 423-425, 432-436 and 228-238: the second branch is
not taken, so origin and day count are not copied and the domain is replaced by year fractions.
`asDate` is a year fraction used as a date (impossible for calendar dates: `TypeError`). -/
noncomputable def DateCurve.copy (asDate : ℝ → Py D) (c : DateCurve D) : Py (DateCurve D) := do
  let ys ← pyMap (c.num cal) c.domain
  let times ← pyMap (c.time cal) c.domain
  let dates ← pyMap asDate times
  let i ← keepInterp none c.interp
  let raw : DateCurve D :=
    ⟨c.domain, none, .default, i, c.dflt, [], .base ⟨.no, ⟨[], []⟩, none⟩⟩
  raw.update cal dates ys

/-- `Curve(date_curve)`, `dcf/curves/curve.py` lines 228-238 (also `to_curve`, line 507-515). -/
noncomputable def DateCurve.toCurve (c : DateCurve D) (interp : Option FuncSpec) : Py Curve := do
  let ys ← pyMap (c.num cal) c.domain
  let times ← pyMap (c.time cal) c.domain
  let i ← keepInterp interp c.interp
  Curve.new times ys i

end DateCurve

section DateArith
variable {D P : Type} [AddCommGroup D] [LinearOrder D] (cal : Cal D P)

/-- `DateCurve.shifted`: `Curve.shifted`, `dcf/curves/curve.py` lines 341-353.  Dates form an additive
group here (year fractions, or day numbers with day differences). -/
noncomputable def DateCurve.shifted (c : DateCurve D) (delta : D) : Py (DateCurve D) :=
  DateCurve.resample cal (if delta ≠ 0 then c.domain.map (· + delta) else c.domain) c none none .default

/-- `self.origin - other.origin` -/
def originDiff (f g : DateCurve D) : Py D := do
  let a ← pyDate f.origin
  let b ← pyDate g.origin
  .ok (a - b)

/-- `DateCurve.__add__`, `__sub__`, `__mul__`, `dcf/curves/curve.py` lines 464-483: the object with
origin and day count is built but dropped. -/
noncomputable def DateCurve.binop (op : ℝ → ℝ → ℝ) (f g : DateCurve D) : Py (DateCurve D) := do
  let delta ← originDiff f g
  let g' ← g.shifted cal delta
  let x_list := sortedSet (f.domain ++ g'.domain)
  let y_list ← pyMap (fun x => do .ok (op (← f.num cal x) (← g'.num cal x))) x_list
  let new ← DateCurve.new cal x_list y_list f.interp none .default f.dflt
  let data ← pyMap (new.num cal) new.domain
  let _ ← DateCurve.new cal new.domain data new.interp f.origin f.dc f.dflt
  .ok new

noncomputable def anyZeroD (g : D → Py (Option ℝ)) : List D → Py Bool
  | [] => .ok false
  | x :: l => do
    let v ← g x
    if v = none ∨ v = some 0 then .ok true else anyZeroD g l

/-- `DateCurve.__div__`, `dcf/curves/curve.py` lines 485-489: `origin` is a property without setter,
the assignment raises `AttributeError`. -/
noncomputable def DateCurve.div (f g : DateCurve D) : Py (DateCurve D) := do
  let delta ← originDiff f g
  let g' ← g.shifted cal delta
  let x_list := sortedSet (f.domain ++ g'.domain)
  if ← anyZeroD (g'.call cal) x_list then throw .zeroDivision
  let y_list ← pyMap (fun x => do pyDiv (← f.num cal x) (← g'.num cal x)) x_list
  let _ ← DateCurve.new cal x_list y_list f.interp none .default f.dflt
  throw .attribute

end DateArith

/-! ## Forward curves -/

/-- `yield_curve` of a `ForwardCurve` after construction: `None`, an object with
`get_discount_factor`, or any other callable. -/
inductive YieldCurve (D : Type)
  | none
  | discount (df : D → D → Py ℝ)
  | function (g : D → Py ℝ)

/-- `yield_curve` argument. -/
inductive YieldArg (D : Type)
  | flat (y : ℝ)
  /-- a python `int` -/
  | int (y : ℤ)
  | curve (y : YieldCurve D)

/-- `ForwardCurve`, `dcf/curves/curve.py` lines 581-648. -/
structure ForwardCurve (D : Type) where
  base : DateCurve D
  yieldCurve : YieldCurve D

section Forward
variable {D P : Type} [LinearOrder D] (cal : Cal D P)

/-- `ForwardCurve.__init__` with point lists, `dcf/curves/curve.py` lines 586-625.  A float yield with
a known origin becomes the function `x ↦ exp(-day_count(x) * yield)`; without origin (no points) it
stays a float and calling it is a `TypeError`; so does an `int`. -/
noncomputable def ForwardCurve.new (domain : List D) (data : List ℝ) (interp : Option FuncSpec)
    (origin : Option D) (dc : DayCountArg D) (y : YieldArg D) : Py (ForwardCurve D) := do
  let base ← DateCurve.new cal domain data interp origin dc logLinearScheme
  match y with
  | .flat r =>
    if base.origin.isSome then
      .ok ⟨base, .function fun x => do .ok (Real.exp (-(← base.time cal x) * r))⟩
    else .ok ⟨base, .function fun _ => .error .type⟩
  | .int _ => .ok ⟨base, .function fun _ => .error .type⟩
  | .curve y => .ok ⟨base, y⟩

/-- `ForwardCurve(spot, origin=...)` and `ForwardCurve(Price(spot, origin))`: the single point
`(origin, spot)`, `dcf/curves/curve.py` lines 607-617. -/
noncomputable def ForwardCurve.spot (spot : ℝ) (interp : Option FuncSpec) (origin : D) (dc : DayCountArg D)
    (y : YieldArg D) : Py (ForwardCurve D) :=
  ForwardCurve.new cal [origin] [spot] interp (some origin) dc y

/-- `ForwardCurve.get_forward_price`, `dcf/curves/curve.py` lines 628-648. -/
noncomputable def ForwardCurve.price (c : ForwardCurve D) (value_date : D) : Py (Option ℝ) := do
  let last_date ← pyLast c.base.domain
  if value_date ≤ last_date then c.base.call cal value_date
  else
    let last_price ← c.base.call cal last_date
    let df ← match c.yieldCurve with
      | .none => Except.ok 1
      | .discount df => df last_date value_date
      | .function g => do pyDiv (← g value_date) (← g last_date)
    let p ← pyNum last_price
    some <$> pyDiv p df

/-- `ForwardCurve(domain, curve)` with `curve` a forward curve, `dcf/curves/curve.py` lines 586-625 and 426-436: dates,
interpolation, origin and day count as for any date curve; `kwargs` finds no attribute `_yield_curve`, so the yield is the
default `0.0`. -/
noncomputable def ForwardCurve.resample (domain : List D) (data : ForwardCurve D) : Py (ForwardCurve D) := do
  let ys ← pyMap (fun x => do pyNum (← data.price cal x)) domain
  let i ← keepInterp none data.base.interp
  ForwardCurve.new cal domain ys i data.base.origin? data.base.dc.kwarg (.flat 0)

/-- `ForwardCurve(**curve.kwargs)`: as above, on the domain of the curve. -/
noncomputable def ForwardCurve.rebuild (c : ForwardCurve D) : Py (ForwardCurve D) :=
  ForwardCurve.resample cal c.base.domain c

end Forward

/-- `ForwardCurve.shifted`: `Curve.shifted`, `dcf/curves/curve.py` lines 341-353. -/
noncomputable def ForwardCurve.shifted {D P : Type} [AddCommGroup D] [LinearOrder D] (cal : Cal D P) (c : ForwardCurve D)
    (delta : D) : Py (ForwardCurve D) :=
  ForwardCurve.resample cal (if delta ≠ 0 then c.base.domain.map (· + delta) else c.base.domain) c

section ForwardArith
variable {D P : Type} [AddCommGroup D] [LinearOrder D] (cal : Cal D P)

/-- Price as a number in arithmetic. -/
noncomputable def ForwardCurve.num (c : ForwardCurve D) (x : D) : Py ℝ := do pyNum (← c.price cal x)

/-- `ForwardCurve.__add__`, `__sub__`, `__mul__`: those of `DateCurve` and `Curve`, `dcf/curves/curve.py` lines 464-483 and
293-306, with the constructor and the call of forward curves (lines 586-626): the yield is the default `0.0`. -/
noncomputable def ForwardCurve.binop (op : ℝ → ℝ → ℝ) (f g : ForwardCurve D) : Py (ForwardCurve D) := do
  let delta ← originDiff f.base g.base
  let g' ← g.shifted cal delta
  let x_list := sortedSet (f.base.domain ++ g'.base.domain)
  let y_list ← pyMap (fun x => do .ok (op (← f.num cal x) (← g'.num cal x))) x_list
  let new ← ForwardCurve.new cal x_list y_list f.base.interp none .default (.flat 0)
  let data ← pyMap (new.num cal) new.base.domain
  let _ ← ForwardCurve.new cal new.base.domain data new.base.interp f.base.origin f.base.dc (.flat 0)
  .ok new

/-- `ForwardCurve.__div__`: `dcf/curves/curve.py` lines 485-489 and 308-317. -/
noncomputable def ForwardCurve.div (f g : ForwardCurve D) : Py (ForwardCurve D) := do
  let delta ← originDiff f.base g.base
  let g' ← g.shifted cal delta
  let x_list := sortedSet (f.base.domain ++ g'.base.domain)
  if ← anyZeroD (g'.price cal) x_list then throw .zeroDivision
  let y_list ← pyMap (fun x => do pyDiv (← f.num cal x) (← g'.num cal x)) x_list
  let _ ← ForwardCurve.new cal x_list y_list f.base.interp none .default (.flat 0)
  throw .attribute

end ForwardArith

/-! ## Concrete date types -/

/-- Periods for float dates: a number, or one of the string constants (adding a string to a float is
a `TypeError`). -/
inductive FloatPeriod
  | num (x : ℝ)
  | str
  deriving Inhabited

/-- Float dates (year fractions). -/
noncomputable def floatCal : Cal ℝ FloatPeriod where
  dayCount s e := e - s
  add d p := match p with
    | .num x => .ok (d + x)
    | .str => .error .type
  sub d p := match p with
    | .num x => .ok (d - x)
    | .str => .error .type
  oneDay := .str
  threeMonths := .str
  oneYear := .str
  tenYears := .str
  falsy d := d = 0
  falsyPeriod p := match p with
    | .num x => x = 0
    | .str => false

/-- Calendar dates as day numbers, periods as a number of days.  A month is 30 days here, it serves
for examples only; theorems hold for every `Cal`. -/
noncomputable def dayCal : Cal ℤ ℤ where
  dayCount s e := ((e - s : ℤ) : ℝ) / (36525 / 100)
  add d p := .ok (d + p)
  sub d p := .ok (d - p)
  oneDay := 1
  threeMonths := 90
  oneYear := 365
  tenYears := 3652
  falsy _ := false
  falsyPeriod p := p = 0

end Dcf
