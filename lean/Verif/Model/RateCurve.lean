import Verif.Model.Curve

/-!
# Model of `RateCurve` (`dcf/curves/curve.py`) and of `dcf/curves/interestratecurve.py`

Simplifications:
* `kwargs` (`dcf/curves/curve.py` lines 153-164) is reduced to the entries used by constructors;
  that it also evaluates the curve on its own domain is not modelled;
* `start is self.origin` is an explicit boolean argument `same`;
* recursive methods carry the remaining recursion depth `limit`; at `0` python raises
  `RecursionError`.
-/

namespace Dcf

/-- `RateCurve`, `dcf/curves/curve.py` lines 651-785, as far as it is shared by all rate curves. -/
structure RateCurve (D P : Type) where
  base : DateCurve D
  /-- `_forward_tenor` -/
  tenor : Option P
  /-- `_spread`: a curve, used by calling it -/
  spread : Option (D → Py (Option ℝ))

section Rate
variable {D P : Type} [LinearOrder D] (cal : Cal D P)

/-- `RateCurve.__call__` on a single date, `dcf/curves/curve.py` lines 748-752.  `None` in the
addition is a `TypeError`. -/
noncomputable def RateCurve.call (c : RateCurve D P) (x : D) : Py ℝ := do
  let s ← match c.spread with
    | some f => f x
    | none => .ok (some 0)
  let b ← c.base.call cal x
  let b ← pyNum b
  let s ← pyNum s
  .ok (b + s)

/-- Setter of `RateCurve.spread`, `dcf/curves/curve.py` lines 685-691. -/
def RateCurve.setSpread (c : RateCurve D P) (f : Option (D → Py (Option ℝ))) : Py (RateCurve D P) :=
  if f.isSome ∧ c.spread.isSome then .error .type else .ok { c with spread := f }

/-- `Curve.__setitem__` on a rate curve, `dcf/curves/curve.py` lines 278-286: the values are read by
`RateCurve.__call__`. -/
noncomputable def RateCurve.setitem (c : RateCurve D P) (key : D) (value : ℝ) : Py (RateCurve D P) := do
  let b ← c.base.setitemWith cal (c.call cal) key value
  .ok { c with base := b }

/-- `min(l)`: `ValueError` on the empty list. -/
def minDate (l : List D) : Py D :=
  match l.min? with
  | some d => .ok d
  | none => .error .value

/-- `max(l)`. -/
def maxDate (l : List D) : Py D :=
  match l.max? with
  | some d => .ok d
  | none => .error .value

/-- The loop shared by `ShortRateCurve`, `CashRateCurve` and the marginal credit curves:
`while current + step < stop: acc = update(acc, current, current + step); current += step`. -/
noncomputable def stepLoop (step : P) (stop : D) (update : ℝ → D → D → Py ℝ) (start : D) (acc : ℝ) :
    Py (D × ℝ) :=
  pyWhile
    (fun s : D × ℝ => do
      let next ← cal.add s.1 step
      .ok (decide (next < stop)))
    (fun s => do
      let next ← cal.add s.1 step
      let acc ← update s.2 s.1 next
      .ok (next, acc))
    (start, acc)

end Rate

/-! ## Interest rate curves -/

/-- The classes of `dcf/curves/interestratecurve.py`: `DiscountFactorCurve` 282-323, `ZeroRateCurve`
326-350, `ShortRateCurve` 353-381, `CashRateCurve` 384-441. -/
inductive IRClass
  | discount | zero | short | cash
  deriving DecidableEq, Repr

/-- Class default `_INTERPOLATION`, lines 288, 332, 359 and (inherited) `dcf/curves/curve.py` 151. -/
def IRClass.dflt : IRClass → FuncSpec
  | .discount => logLinearRateScheme
  | .zero => linearScheme
  | .short => .base .constant
  | .cash => linearScheme

structure IRCurve (D P : Type) extends RateCurve D P where
  cls : IRClass

section IR
variable {D P : Type} [LinearOrder D] (cal : Cal D P)

noncomputable def IRCurve.call (c : IRCurve D P) (x : D) : Py ℝ := c.toRateCurve.call cal x

/-- `self.day_count(start, stop)` -/
def IRCurve.dayCount (c : IRCurve D P) (start stop : D) : Py ℝ := c.base.dayCount cal start stop

/-- `forward_tenor`, `dcf/curves/curve.py` lines 673-677. -/
def IRCurve.forwardTenor (c : IRCurve D P) : P := c.tenor.getD cal.threeMonths

/-- Construction from point lists. -/
noncomputable def IRCurve.new (cls : IRClass) (domain : List D) (data : List ℝ) (interp : Option FuncSpec)
    (origin : Option D) (dc : DayCountArg D) (tenor : Option P) : Py (IRCurve D P) := do
  let b ← DateCurve.new cal domain data interp origin dc cls.dflt
  .ok ⟨⟨b, tenor, none⟩, cls⟩

/-- `type(curve)(**curve.kwargs)`, `dcf/curves/curve.py` lines 153-164: the values on the domain with spread and fixings,
interpolation and day count by name, the tenor if given.  Neither spread nor fixings are arguments. -/
noncomputable def IRCurve.rebuild (c : IRCurve D P) : Py (IRCurve D P) := do
  let ys ← pyMap (c.call cal) c.base.domain
  let i ← keepInterp none c.base.interp
  IRCurve.new cal c.cls c.base.domain ys i c.base.origin? c.base.dc.kwarg c.tenor

/-- `DiscountFactorCurve._get_compounding_factor`, lines 311-314. -/
noncomputable def IRCurve.discountFactorOf (c : IRCurve D P) (same : Bool) (start stop : D) : Py ℝ := do
  if same then c.call cal stop
  else
    let e ← c.call cal stop
    let s ← c.call cal start
    pyDiv e s

/-- `DiscountFactorCurve._get_compounding_rate`, lines 316-323, with `RateCurve._get_compounding_rate`,
`dcf/curves/curve.py` lines 778-785.  If adding a day does not change the date the method calls itself
with the same arguments. -/
noncomputable def IRCurve.discountRateOf (c : IRCurve D P) (same : Bool) (start stop : D) : Py ℝ := do
  let stop ← if start = stop ∧ c.base.origin = some start
    then minDate (c.base.domain.filter (start < ·)) else .ok stop
  let stop ← if start = stop then cal.add start cal.oneDay else .ok stop
  if start = stop then throw .recursion
  let df ← c.discountFactorOf cal same start stop
  let t ← c.dayCount cal start stop
  continuousRate df t

/-- The part of `ZeroRateCurve._get_compounding_rate` after the special cases, lines 347-350. -/
noncomputable def IRCurve.zeroForward (c : IRCurve D P) (start stop : D) : Py ℝ := do
  let o ← pyDate c.base.origin
  let zs ← c.call cal start
  let ts ← c.dayCount cal o start
  let ze ← c.call cal stop
  let te ← c.dayCount cal o stop
  let t ← c.dayCount cal start stop
  pyDiv (ze * te - zs * ts) t

/-- `ZeroRateCurve._get_compounding_rate`, lines 338-350. -/
noncomputable def IRCurve.zeroRateOf (c : IRCurve D P) (same : Bool) (start stop : D) : Py ℝ := do
  if start = stop ∧ c.base.origin = some start then c.call cal start
  else if same then c.call cal stop
  else if start = stop then
    let stop ← cal.add start cal.oneDay
    if start = stop then throw .recursion
    c.zeroForward cal start stop
  else c.zeroForward cal start stop

/-- `ShortRateCurve._get_compounding_rate`, lines 365-378. -/
noncomputable def IRCurve.shortRateOf (c : IRCurve D P) (start stop : D) : Py ℝ := do
  if start = stop then c.call cal start
  else
    let (current, rate) ← stepLoop cal cal.oneDay stop (fun rate current next => do
      let r ← c.call cal current
      let t ← c.dayCount cal current next
      .ok (rate + r * t)) start 0
    let r ← c.call cal current
    let t ← c.dayCount cal current stop
    let d ← c.dayCount cal start stop
    pyDiv (rate + r * t) d

/-- `CashRateCurve._get_compounding_rate`, lines 417-430. -/
noncomputable def IRCurve.cashRateOf (c : IRCurve D P) (start stop : D) : Py ℝ := do
  if start = stop then c.call cal start
  else
    let (current, df) ← stepLoop cal (c.forwardTenor cal) stop (fun df current next => do
      let dc ← c.dayCount cal current next
      let r ← c.call cal current
      let x ← simpleCompounding r dc
      .ok (df * x)) start 1
    let dc ← c.dayCount cal current stop
    let r ← c.call cal current
    let x ← simpleCompounding r dc
    let t ← c.dayCount cal start stop
    continuousRate (df * x) t

/-- `_get_compounding_rate` by class. -/
noncomputable def IRCurve.rate (c : IRCurve D P) (same : Bool) (start stop : D) : Py ℝ :=
  match c.cls with
  | .discount => c.discountRateOf cal same start stop
  | .zero => c.zeroRateOf cal same start stop
  | .short => c.shortRateOf cal start stop
  | .cash => c.cashRateOf cal start stop

/-- `_get_compounding_factor` by class; for all but `DiscountFactorCurve`
`RateCurve._get_compounding_factor`, `dcf/curves/curve.py` lines 770-776. -/
noncomputable def IRCurve.factor (c : IRCurve D P) (same : Bool) (start stop : D) : Py ℝ :=
  match c.cls with
  | .discount => c.discountFactorOf cal same start stop
  | _ => do
    if start = stop then .ok 1
    else
      let ir ← c.rate cal same start stop
      let t ← c.dayCount cal start stop
      continuousCompounding ir t

/-- `get_discount_factor(start)`, lines 72-74: `start` is the origin object itself. -/
noncomputable def IRCurve.discount (c : IRCurve D P) (stop : D) : Py ℝ := do
  let o ← pyDate c.base.origin
  c.factor cal true o stop

/-- `get_zero_rate(start)`, lines 110-112. -/
noncomputable def IRCurve.zero (c : IRCurve D P) (stop : D) : Py ℝ := do
  let o ← pyDate c.base.origin
  c.rate cal true o stop

/-- `get_short_rate`, lines 114-159 and 380-381.  `same` tells whether the grid date before `start` is
the origin object. -/
noncomputable def IRCurve.shortRate (c : IRCurve D P) (same : Bool) : ℕ → D → Py ℝ
  | 0, _ => .error .recursion
  | limit + 1, start =>
    match c.cls with
    | .short => c.call cal start
    | _ => do
      let lo ← minDate c.base.domain
      if start < lo then c.shortRate same limit lo
      else
        let hi ← maxDate c.base.domain
        if hi ≤ start then
          let d ← cal.sub hi cal.oneDay
          c.shortRate same limit d
        else
          let previous ← maxDate (c.base.domain.filter (· ≤ start))
          let follow ← minDate (c.base.domain.filter (start < ·))
          if ¬ (previous ≤ start ∧ start ≤ follow) then throw .assertion
          if ¬ previous < follow then throw .assertion
          c.rate cal same previous follow

/-- The end date of a cash lending period, lines 243-248 and 433-438.  Whether `stop` and `step` are
false in a boolean context matters. -/
def IRCurve.cashStop (c : IRCurve D P) (start : D) (stop : Option D) (step : Option P) : Py D := do
  match stop, step with
  | some e, some p =>
    if ¬ cal.falsy e ∧ ¬ cal.falsyPeriod p then
      let x ← cal.add start p
      if ¬ x = e then throw .assertion
    .ok e
  | some e, none => .ok e
  | none, some p => cal.add start p
  | none, none => cal.add start (c.forwardTenor cal)

/-- `get_cash_rate`, lines 202-252 and 432-441: `CashRateCurve._get_cash_rate` calls
`super().get_cash_rate`, which calls `self._get_cash_rate`. -/
noncomputable def IRCurve.cashRate (c : IRCurve D P) (same : Bool) :
    ℕ → D → Option D → Option P → Py ℝ
  | 0, _, _, _ => .error .recursion
  | limit + 1, start, stop, step => do
    let e ← c.cashStop cal start stop step
    match c.cls with
    | .cash =>
      let x ← cal.add start (c.forwardTenor cal)
      if e = x then c.call cal start
      else c.cashRate same limit start (some e) none
    | _ =>
      let df ← c.factor cal same start e
      let t ← c.dayCount cal start e
      simpleRate df t

/-- `get_swap_annuity`, lines 254-279. -/
noncomputable def IRCurve.swapAnnuity (c : IRCurve D P) (date_list : List D) : Py ℝ := do
  let l ← pyMap (fun p : D × D => do
    let df ← c.discount cal p.2
    let t ← c.dayCount cal p.1 p.2
    .ok (df * t)) (date_list.dropLast.zip date_list)
  .ok (pySum l)

/-- `_get_storage_value(curve, x)`, lines 290-292, 334-336, 361-363, 391-393.  `same` as in
`IRCurve.shortRate` and for `x` being the origin object. -/
noncomputable def IRClass.storage (cls : IRClass) (limit : ℕ) (same : D → Bool) (c : IRCurve D P) (x : D) : Py ℝ :=
  match cls with
  | .discount => c.discount cal x
  | .zero => c.zero cal x
  | .short => c.shortRate cal (same x) limit x
  | .cash => c.cashRate cal (same x) limit x none none

/-- Casting onto a given grid: `cls(domain, curve)`, `dcf/curves/curve.py` lines 693-746. -/
noncomputable def IRCurve.castOn (cls : IRClass) (limit : ℕ) (same : D → Bool) (domain : List D) (c : IRCurve D P)
    (interp : Option FuncSpec) (origin : Option D) (dc : DayCountArg D) (tenor : Option P) :
    Py (IRCurve D P) := do
  let data ← pyMap (cls.storage cal limit same c) domain
  IRCurve.new cal cls domain data interp (cal.or origin c.base.origin?) (dc.or c.base.dc.kwarg) tenor

/-- The inner loop of `CashRateCurve.__init__`, lines 409-412: `while origin < x: add x; x -= tenor`. -/
noncomputable def cashGrid (origin : D) (tenor : P) (x : D) : Py (List D) := do
  let s ← pyWhile (fun s : D × List D => .ok (decide (origin < s.1)))
    (fun s => do
      let y ← cal.sub s.1 tenor
      .ok (y, s.2 ++ [s.1])) (x, [])
  .ok s.2

/-- Casting a curve as a whole: `cls(curve)`; `DiscountFactorCurve` lines 294-309 and `CashRateCurve`
lines 395-415 add grid points. -/
noncomputable def IRCurve.cast (cls : IRClass) (limit : ℕ) (same : D → Bool) (c : IRCurve D P)
    (interp : Option FuncSpec) (origin : Option D) (dc : DayCountArg D) (tenor : Option P) :
    Py (IRCurve D P) :=
  match cls with
  | .discount => do
    let origin := origin.or c.base.origin
    let o ← pyDate origin
    let a ← cal.add o cal.oneDay
    let m ← maxDate c.base.domain
    let b ← cal.add m cal.oneDay
    IRCurve.castOn cal cls limit same (sortedSet (c.base.domain ++ [a, b])) c interp origin dc tenor
  | .cash => do
    let origin := origin.or c.base.origin
    let tenor := tenor.getD (c.forwardTenor cal)
    let extra ← pyMap (fun x => do
      let o ← pyDate origin
      cashGrid cal o tenor x) c.base.domain
    IRCurve.castOn cal cls limit same (sortedSet (c.base.domain ++ extra.flatten)) c interp origin dc (some tenor)
  | _ => IRCurve.castOn cal cls limit same c.base.domain c interp origin dc tenor

end IR

end Dcf
