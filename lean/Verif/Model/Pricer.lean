import Verif.Model.Cashflow
import Verif.Model.VolCurve
import Verif.Model.CreditCurve

/-!
# Pricing functions: `dcf/pricer.py`

Python objects that are changed by the pricing functions live in a `World`: rate curves (their spread), payoff models
(their valuation date) and cashflow lists (their fixed rates).  They are referred to by address, so the same object can be
used in several places.

Simplifications:
* what a forward curve or volatility curve answers is a function of the rate curves in the world;
* `valuation_date is curve.origin` for a given valuation date is an explicit boolean `same`;
* `get_present_value` does not change curves, so the discount curve is handed over by value.
-/

set_option linter.unusedVariables false

namespace Dcf

/-! ## Computations with state -/

/-- A python computation on objects of type `σ`: what it returns or raises and the objects afterwards.  Changes made
before an exception stay. -/
def PyM (σ α : Type) := σ → Py α × σ

namespace PyM
variable {σ α β : Type}

/-- Sequencing: an exception stops, the state is kept. -/
def andThen (m : PyM σ α) (f : α → PyM σ β) : PyM σ β := fun s =>
  match m s with
  | (.ok a, s') => f a s'
  | (.error e, s') => (.error e, s')

instance : Monad (PyM σ) where
  pure a := fun s => (.ok a, s)
  bind := andThen

/-- A computation without effect. -/
def lift (x : Py α) : PyM σ α := fun s => (x, s)

/-- Reading all objects. -/
def get : PyM σ σ := fun s => (.ok s, s)

/-- Changing objects. -/
def modify (f : σ → σ) : PyM σ Unit := fun s => (.ok (), f s)

/-- `[f(x) for x in l]` with effects. -/
def mapM (f : α → PyM σ β) : List α → PyM σ (List β)
  | [] => pure []
  | a :: l => do
    let b ← f a
    let bs ← mapM f l
    pure (b :: bs)

/-- `for x in l: f(x)` -/
def forM (f : α → PyM σ Unit) : List α → PyM σ Unit
  | [] => pure ()
  | a :: l => do
    f a
    forM f l

end PyM

/-! ## Bracketing -/

/-- `f = (lambda x: -func(x))` -/
def negFunc {σ : Type} (func : ℝ → PyM σ ℝ) : ℝ → PyM σ ℝ := fun x => do
  let y ← func x
  pure (-y)

/-- `f = -func` and swapped values if `fb < fa`, `dcf/pricer.py` lines 32-36. -/
noncomputable def orient {σ : Type} (func : ℝ → PyM σ ℝ) (fa fb : ℝ) : (ℝ → PyM σ ℝ) × ℝ × ℝ :=
  if fb < fa then (negFunc func, fb, fa) else (func, fa, fb)

/-- `a, b = (m, b) if f(m) < 0 else (a, m)`, `dcf/pricer.py` line 48. -/
noncomputable def narrow (a m b fm : ℝ) : ℝ × ℝ := if fm < 0 then (m, b) else (a, m)

/-- `_simple_bracketing`, `dcf/pricer.py` lines 19-49.  The first number is python's recursion limit. -/
noncomputable def bracket {σ : Type} (precision : ℝ) : ℕ → (ℝ → PyM σ ℝ) → ℝ → ℝ → PyM σ (ℝ × ℝ × ℝ)
  | 0, _, _, _ => PyM.lift (.error .recursion)
  | limit + 1, func, a, b => do
    let fa ← func a
    let fb ← func b
    let o := orient func fa fb
    if ¬ (o.2.1 ≤ 0 ∧ 0 ≤ o.2.2) then PyM.lift (.error .assertion)
    else
      let m := a + (b - a) * (1 / 2)
      if |b - a| < precision ∧ |o.2.2 - o.2.1| < precision then pure (a, m, b)
      else do
        let fm ← o.1 m
        let ab := narrow a m b fm
        bracket precision limit o.1 ab.1 ab.2

/-! ## Objects -/

/-- Classes of rate curves. -/
inductive CurveKind
  | ir (cls : IRClass)
  | vol (cls : VolClass) (floor : Option ℝ)
  | credit (cls : CRClass)

/-- A rate curve object. -/
structure CurveObj (D P : Type) extends RateCurve D P where
  kind : CurveKind

/-- All rate curve objects by address. -/
abbrev Curves (D P : Type) := ℕ → CurveObj D P

/-- An option payoff model object; its curves may be rate curves of the world. -/
structure ModelObj (D P : Type) where
  valuation : Option D
  forward : Curves D P → Fwd D
  vol : Curves D P → Vol D
  dayCount : Option (D → D → ℝ)
  bump : Bool
  formula : OptFormula

/-- What a cashflow list hands to its payoffs: a forward curve (or `None`) or a payoff model object. -/
inductive ArgRef (D P : Type)
  | fwd (f : Curves D P → Fwd D)
  | model (a : ℕ)

/-- A flat cashflow list object.  `hasModel`, `hasForward`, `hasFixedRate`: it has an attribute `payoff_model`,
`forward_curve`, `fixed_rate`. -/
structure ListObj (D P : Type) where
  origin? : Option D
  domain : List D
  flows : Dict D (PayOff D P)
  arg : ArgRef D P
  hasModel : Bool
  hasForward : Bool
  hasFixedRate : Bool

structure World (D P : Type) where
  curves : Curves D P
  models : ℕ → ModelObj D P
  lists : ℕ → ListObj D P

/-- A cashflow list: a flat list object or a `CashFlowLegList` with its stored domain and origin. -/
inductive Product (D : Type)
  | list (a : ℕ)
  | legs (ps : List (Product D)) (domain : List D) (origin : Option D)

section
variable {D P : Type} [LinearOrder D] (cal : Cal D P)

/-- An interest rate curve object seen as such. -/
def CurveObj.ir? (c : CurveObj D P) : Option (IRCurve D P) :=
  match c.kind with
  | .ir cls => some ⟨c.toRateCurve, cls⟩
  | _ => none

def IRCurve.obj (c : IRCurve D P) : CurveObj D P := ⟨c.toRateCurve, .ir c.cls⟩

/-- An interest rate curve used as forward curve, `get_cash_rate(date)`. -/
noncomputable def IRCurve.asFwd (same : D → Bool) (limit : ℕ) (c : IRCurve D P) : Fwd D :=
  .cash (fun d => c.cashRate cal (same d) limit d none none) (c.dayCount cal)

/-- A volatility curve used by a model, `get_terminal_vol(date)`. -/
noncomputable def VolCurve.asVol (scipy : Bool) (limit : ℕ) (c : VolCurve D P) : Vol D :=
  .terminal (fun d => c.terminalVol cal scipy limit d none) (c.dayCount cal)

/-- The interest rate curve at an address as forward curve. -/
noncomputable def fwdRef (same : D → Bool) (limit : ℕ) (a : ℕ) : Curves D P → Fwd D := fun cs =>
  match (cs a).ir? with
  | some c => c.asFwd cal same limit
  | none => .fn ((cs a).toRateCurve.call cal)

/-- The volatility curve at an address. -/
noncomputable def volRef (scipy : Bool) (limit : ℕ) (a : ℕ) : Curves D P → Vol D := fun cs =>
  match (cs a).kind with
  | .vol cls floor => (VolCurve.mk (cs a).toRateCurve cls floor).asVol cal scipy limit
  | _ => .fn ((cs a).toRateCurve.call cal) (some ((cs a).base.dayCount cal))

/-- A model with the current state of its curves. -/
def World.model (w : World D P) (a : ℕ) : OptModel D where
  valuation := (w.models a).valuation
  forward := (w.models a).forward w.curves
  vol := (w.models a).vol w.curves
  dayCount := (w.models a).dayCount
  bump := (w.models a).bump
  formula := (w.models a).formula

def World.arg (w : World D P) : ArgRef D P → ModelArg D
  | .fwd f => .fwd (f w.curves)
  | .model a => .model (w.model a)

/-- A list with the current state of its curves and models. -/
def World.list (w : World D P) (a : ℕ) : CFList D P where
  origin? := (w.lists a).origin?
  domain := (w.lists a).domain
  flows := (w.lists a).flows
  arg := w.arg (w.lists a).arg
  hasModel := (w.lists a).hasModel

mutual
/-- A product with the current state of its objects. -/
def World.product (w : World D P) : Product D → CF D P
  | .list a => .flat (w.list a)
  | .legs ps d o => .legs (w.products ps) d o

def World.products (w : World D P) : List (Product D) → List (CF D P)
  | [] => []
  | p :: ps => w.product p :: w.products ps
end

def World.setCurve (w : World D P) (a : ℕ) (c : CurveObj D P) : World D P :=
  { w with curves := Function.update w.curves a c }

def World.setValuation (w : World D P) (a : ℕ) (v : Option D) : World D P :=
  { w with models := Function.update w.models a { w.models a with valuation := v } }

def World.setList (w : World D P) (a : ℕ) (l : ListObj D P) : World D P :=
  { w with lists := Function.update w.lists a l }

/-! ## Present value -/

/-- `list(d for d in cashflow_list.domain if valuation_date <= d)`, `dcf/pricer.py` line 106.  Comparing `None` is a
`TypeError`. -/
def payDates (v : Option D) (domain : List D) : Py (List D) :=
  match v with
  | some v => .ok (domain.filter (v ≤ ·))
  | none => if domain = [] then .ok [] else .error .type

/-- `curve.get_discount_factor(start, stop)`; only interest rate curves have it. -/
noncomputable def CurveObj.discountFactor (c : CurveObj D P) (same : Bool) (start stop : D) : Py ℝ :=
  match c.ir? with
  | some c => c.factor cal same start stop
  | none => .error .attribute

/-- `sum(discount_curve.get_discount_factor(valuation_date, t) * float(a) for t, a in value_flows)`, `dcf/pricer.py`
lines 109-115.  Without a valuation date there are no pay dates. -/
noncomputable def discountSum (c : CurveObj D P) (same : Bool) (v : Option D) (flows : List (D × ℝ)) : Py ℝ := do
  let l ← pyMap (fun p : D × ℝ => do
    let v ← pyDate v
    let df ← c.discountFactor cal same v p.1
    .ok (df * p.2)) flows
  .ok (pySum l)

/-- Storing and setting the valuation date of the model, `dcf/pricer.py` lines 99-103.  Neither `None` nor curves have an
attribute `valuation_date`. -/
def enterModel (v : Option D) (l : ListObj D P) : PyM (World D P) (Option (ℕ × Option D)) := fun w =>
  if l.hasModel then
    match l.arg with
    | .model m => (.ok (some (m, (w.models m).valuation)), w.setValuation m v)
    | .fwd _ => (.error .attribute, w)
  else (.ok none, w)

/-- Restoring the valuation date, `dcf/pricer.py` lines 113-114. -/
def leaveModel (saved : Option (ℕ × Option D)) : PyM (World D P) Unit := fun w =>
  match saved with
  | some (m, v) => (.ok (), w.setValuation m v)
  | none => (.ok (), w)

/-- `get_present_value` of a flat list, `dcf/pricer.py` lines 98-115. -/
noncomputable def pvList (c : CurveObj D P) (same : Bool) (v : Option D) (a : ℕ) : PyM (World D P) ℝ := do
  let w ← PyM.get
  let saved ← enterModel v (w.lists a)
  let dates ← PyM.lift (payDates v (w.lists a).domain)
  let w ← PyM.get
  let flows ← PyM.lift ((w.list a).getitems cal dates)
  leaveModel saved
  PyM.lift (discountSum cal c same v (dates.zip flows))

mutual
/-- `get_present_value` with a valuation date, `dcf/pricer.py` lines 94-115. -/
noncomputable def pvAt (c : CurveObj D P) (same : Bool) (v : Option D) : Product D → PyM (World D P) ℝ
  | .list a => pvList cal c same v a
  | .legs ps _ _ => do
    let l ← pvLegs c same v ps
    pure (pySum l)

noncomputable def pvLegs (c : CurveObj D P) (same : Bool) (v : Option D) : List (Product D) → PyM (World D P) (List ℝ)
  | [] => pure []
  | p :: ps => do
    let x ← pvAt c same v p
    let xs ← pvLegs c same v ps
    pure (x :: xs)
end

/-- `get_present_value`, `dcf/pricer.py` lines 52-115.  Without a valuation date it is the origin object of the curve. -/
noncomputable def pv (c : CurveObj D P) (same : Bool) (v : Option D) (p : Product D) : PyM (World D P) ℝ :=
  match v with
  | some v => pvAt cal c same (some v) p
  | none => pvAt cal c true c.base.origin p

/-- `get_present_value` with the discount curve at an address. -/
noncomputable def pvOn (a : ℕ) (same : Bool) (v : Option D) (p : Product D) : PyM (World D P) ℝ := fun w =>
  pv cal (w.curves a) same v p w

/-! ## Yield to maturity -/

/-- The origin of a product. -/
def Product.origin (w : World D P) (p : Product D) : Option D := (w.product p).origin

/-- The error function, `dcf/pricer.py` lines 200-203; the state is the world and the flat curve. -/
noncomputable def ytmErr (same : Bool) (v : D) (target : ℝ) (p : Product D) (current : ℝ) :
    PyM (World D P × IRCurve D P) ℝ := fun s =>
  match s.2.toRateCurve.setitem cal v current with
  | .error e => (.error e, s)
  | .ok rc =>
    let c : IRCurve D P := ⟨rc, s.2.cls⟩
    match pv cal c.obj same (some v) p s.1 with
    | (.ok x, w) => (.ok (x - target), (w, c))
    | (.error e, w) => (.error e, (w, c))

/-- `get_yield_to_maturity`, `dcf/pricer.py` lines 117-208.  `interp`, `origin`, `dc`, `tenor` are the keyword arguments
of the curve. -/
noncomputable def ytm (limit : ℕ) (same : Bool) (interp : Option FuncSpec) (origin : Option D) (dc : DayCountArg D)
    (tenor : Option P) (p : Product D) (valuation : Option D) (target precision lo hi : ℝ) :
    PyM (World D P) ℝ := fun w =>
  match valuation.or (p.origin w) with
  | none => (.error .type, w)
  | some v =>
    match IRCurve.new cal .zero [v] [0] interp origin dc tenor with
    | .error e => (.error e, w)
    | .ok c =>
      match bracket precision limit (ytmErr cal same v target p) lo hi (w, c) with
      | (.ok r, s) => (.ok r.2.1, s.1)
      | (.error e, s) => (.error e, s.1)

/-! ## Accrued interest -/

/-- `isinstance(cf, RateCashFlowPayOff)`; contingent rate payoffs are rate payoffs. -/
def PayOff.ratePay? : PayOff D P → Option (RatePay D P)
  | .rate p => some p
  | .contingentRate p => some p.toRatePay
  | _ => none

/-- `cashflow_list.forward_curve`: contingent lists have no such attribute. -/
def World.forwardCurve (w : World D P) (l : ListObj D P) : Py (ModelArg D) :=
  if l.hasForward then .ok (w.arg l.arg) else .error .attribute

/-- Accrued interest of one flow, `dcf/pricer.py` lines 282-288. -/
noncomputable def accruedFlow (w : World D P) (l : ListObj D P) (v : D) (cf : PayOff D P) : Py ℝ :=
  match cf.ratePay? with
  | some p =>
    if p.start < v then do
      let remaining := p.tau cal v p.stop
      let total := p.tau cal p.start p.stop
      let arg ← w.forwardCurve l
      let flow ← cf.eval cal arg
      let q ← pyDiv remaining total
      .ok (flow * (1 - q))
    else .ok 0
  | none => .ok 0

/-- `get_interest_accrued` at one pay date, `dcf/pricer.py` lines 280-288. -/
noncomputable def accruedAt (w : World D P) (l : ListObj D P) (v d : D) : Py ℝ :=
  if v ≤ d then
    match l.flows.get d with
    | some cf => accruedFlow cal w l v cf
    | none => .ok 0
  else .ok 0

mutual
/-- `get_interest_accrued`, `dcf/pricer.py` lines 211-289. -/
noncomputable def accrued (w : World D P) (v : D) : Product D → Py ℝ
  | .list a => do
    let l ← pyMap (accruedAt cal w (w.lists a) v) (w.lists a).domain
    .ok (pySum l)
  | .legs ps _ _ => do
    let l ← accruedLegs w v ps
    .ok (pySum l)

noncomputable def accruedLegs (w : World D P) (v : D) : List (Product D) → Py (List ℝ)
  | [] => .ok []
  | p :: ps => do
    let x ← accrued w v p
    let xs ← accruedLegs w v ps
    .ok (x :: xs)
end

/-! ## Fair rate -/

/-- `cashflow_list.fixed_rate`, `dcf/cashflows/cashflow.py` lines 353-357; only rate lists have it. -/
noncomputable def getRate (a : ℕ) : PyM (World D P) (Option ℝ) := fun w =>
  if (w.lists a).hasFixedRate then ((w.list a).fixedRate, w) else (.error .attribute, w)

/-- `cf.fixed_rate = value` on all flows, `dcf/cashflows/cashflow.py` lines 359-362. -/
def ListObj.setRate (l : ListObj D P) (v : Option ℝ) : ListObj D P :=
  { l with flows := l.flows.map fun p => (p.1, p.2.setFixedRate v) }

def setRate (a : ℕ) (v : Option ℝ) : PyM (World D P) Unit := PyM.modify fun w => w.setList a ((w.lists a).setRate v)

/-- The error function, `dcf/pricer.py` lines 354-357. -/
noncomputable def fairErr (disc : ℕ) (same : Bool) (v : Option D) (target : ℝ) (a : ℕ) (current : ℝ) :
    PyM (World D P) ℝ := do
  setRate a (some current)
  let x ← pvOn cal disc same v (.list a)
  pure (x - target)

/-- `get_fair_rate`, `dcf/pricer.py` lines 292-364.  Leg lists have no `fixed_rate`. -/
noncomputable def fairRate (limit : ℕ) (disc : ℕ) (same : Bool) (p : Product D) (v : Option D)
    (target precision lo hi : ℝ) : PyM (World D P) ℝ :=
  match p with
  | .legs _ _ _ => PyM.lift (.error .attribute)
  | .list a => do
    let rate ← getRate a
    let r ← bracket precision limit (fairErr cal disc same v target a) lo hi
    setRate a rate
    pure r.2.1

/-! ## Basis point value and bucketed delta -/

/-- A date curve used as spread. -/
noncomputable def DateCurve.asSpread (s : DateCurve D) : D → Py (Option ℝ) := fun x => s.call cal x

/-- `d.spread = curve`, `dcf/curves/curve.py` lines 685-691. -/
def setSpread (a : ℕ) (f : Option (D → Py (Option ℝ))) : PyM (World D P) Unit := fun w =>
  match (w.curves a).toRateCurve.setSpread f with
  | .ok rc => (.ok (), w.setCurve a ⟨rc, (w.curves a).kind⟩)
  | .error e => (.error e, w)

/-- `d.spread = DateCurve(grid, shifts)` -/
noncomputable def shiftCurve (a : ℕ) (grid : List D) (shifts : List ℝ) : PyM (World D P) Unit := do
  let s ← PyM.lift (DateCurve.new cal grid shifts none none .default linearScheme)
  setSpread a (some (s.asSpread cal))

/-- `d.spread = DateCurve([d.origin], [shift])`, `dcf/pricer.py` line 425. -/
noncomputable def parallelShift (shift : ℝ) (a : ℕ) : PyM (World D P) Unit := do
  let w ← PyM.get
  let o ← PyM.lift (pyDate (w.curves a).base.origin)
  shiftCurve cal a [o] [shift]

/-- `get_basis_point_value`, `dcf/pricer.py` lines 367-430. -/
noncomputable def basisPointValue (disc : ℕ) (same : Bool) (p : Product D) (v : Option D) (delta : Option (List ℕ))
    (shift : ℝ) : PyM (World D P) ℝ := do
  let base ← pvOn cal disc same v p
  let delta := delta.getD [disc]
  PyM.forM (parallelShift cal shift) delta
  let sh ← pvOn cal disc same v p
  PyM.forM (fun a => setSpread a none) delta
  let q ← PyM.lift (pyDiv (sh - base) shift)
  pure (q * (1 / 10000))

/-- Grids and shifts, `dcf/pricer.py` lines 552-564. -/
noncomputable def bucketShifts (shift : ℝ) (grid : List D) : Py (List (List D × List ℝ)) :=
  match grid with
  | [] => .error .index
  | [x] => .ok [([x], [shift])]
  | [x, y] => .ok [([x, y], [shift, 0]), ([x, y], [0, shift])]
  | x :: y :: rest => do
    let mids := (grid.zip (grid.tail.zip grid.tail.tail)).map fun q => ([q.1, q.2.1, q.2.2], [0, shift, 0])
    let z ← pyLast grid
    let z' ← pyLast grid.dropLast
    .ok (([x, y], [shift, 0]) :: mids ++ [([z', z], [0, shift])])

/-- One bucket, `dcf/pricer.py` lines 570-576. -/
noncomputable def bucket (disc : ℕ) (same : Bool) (p : Product D) (v : Option D) (delta : List ℕ) (shift base : ℝ)
    (g : List D × List ℝ) : PyM (World D P) ℝ := do
  PyM.forM (fun a => shiftCurve cal a g.1 g.2) delta
  let sh ← pvOn cal disc same v p
  PyM.forM (fun a => setSpread a none) delta
  let q ← PyM.lift (pyDiv (sh - base) shift)
  pure (q * (1 / 10000))

/-- `delta_grid if delta_grid else discount_curve.domain`, `dcf/pricer.py` line 550. -/
def deltaGrid (c : CurveObj D P) (grid : Option (List D)) : List D :=
  match grid with
  | some (x :: l) => x :: l
  | _ => c.base.domain

/-- `get_bucketed_delta`, `dcf/pricer.py` lines 433-578. -/
noncomputable def bucketedDelta (disc : ℕ) (same : Bool) (p : Product D) (v : Option D) (delta : Option (List ℕ))
    (grid : Option (List D)) (shift : ℝ) : PyM (World D P) (List ℝ) := do
  let base ← pvOn cal disc same v p
  let w ← PyM.get
  let gs ← PyM.lift (bucketShifts shift (deltaGrid (w.curves disc) grid))
  PyM.mapM (bucket cal disc same p v (delta.getD [disc]) shift base) gs

/-! ## Curve fit -/

/-- `fitting_curve.__class__(grid, fitting_curve)`: cast onto the grid with values of the own class,
`dcf/curves/curve.py` lines 693-746. -/
noncomputable def CurveObj.castOn (scipy : Bool) (limit : ℕ) (same : D → Bool) (grid : List D) (c : CurveObj D P) :
    Py (RateCurve D P) :=
  match c.kind with
  | .ir cls => do .ok (← IRCurve.castOn cal cls limit same grid ⟨c.toRateCurve, cls⟩ none none .default none).toRateCurve
  | .vol cls floor => do
    let data ← pyMap (cls.storage cal scipy limit ⟨c.toRateCurve, cls, floor⟩) grid
    let b ← DateCurve.new cal grid data none (cal.or none c.base.origin?) c.base.dc.kwarg cls.dflt
    .ok ⟨b, none, none⟩
  | .credit cls => do
    .ok (← CRCurve.castOn cal cls limit same grid ⟨c.toRateCurve, cls⟩ none none .default none).toRateCurve

/-- A rate curve used as spread. -/
noncomputable def RateCurve.asSpread (s : RateCurve D P) : D → Py (Option ℝ) := fun x => some <$> s.call cal x

/-- The spread curve object of the curve at `a` is `s`. -/
noncomputable def World.linkSpread (w : World D P) (a : ℕ) (s : RateCurve D P) : World D P :=
  w.setCurve a { w.curves a with spread := some (s.asSpread cal) }

/-- `fitting_curve.spread[d] = x`; the state is the world and the spread curve. -/
noncomputable def setSpreadPoint (a : ℕ) (d : D) (x : ℝ) : PyM (World D P × RateCurve D P) Unit := fun s =>
  match s.2.setitem cal d x with
  | .ok sp => (.ok (), (s.1.linkSpread cal a sp, sp))
  | .error e => (.error e, s)

/-- `get_present_value(cf, discount_curve, valuation_date) - pv` in that state. -/
noncomputable def pvGap (disc : ℕ) (same : Bool) (v : Option D) (q : Product D × ℝ) :
    PyM (World D P × RateCurve D P) ℝ := fun s =>
  match pvOn cal disc same v q.1 s.1 with
  | (.ok x, w) => (.ok (x - q.2), (w, s.2))
  | (.error e, w) => (.error e, (w, s.2))

/-- The error function, `dcf/pricer.py` lines 726-732. -/
noncomputable def fitErr (disc : ℕ) (same : Bool) (v : Option D) (a : ℕ) (d : D) (ps : List (Product D × ℝ))
    (current : ℝ) : PyM (World D P × RateCurve D P) ℝ := do
  setSpreadPoint cal a d current
  let pvs ← PyM.mapM (pvGap cal disc same v) ps
  pure (pySum pvs)

/-- Products that end at or before `d`, `dcf/pricer.py` line 723. -/
def filterProducts (w : World D P) (d : D) (ps : List (Product D × ℝ)) : Py (List (Product D × ℝ)) := do
  let ends ← pyMap (fun q : Product D × ℝ => maxDate (w.product q.1).domain) ps
  .ok (((ps.zip ends).filter fun q => q.2 ≤ d).map Prod.fst)

/-- One grid date, `dcf/pricer.py` lines 720-735. -/
noncomputable def fitStep (limit : ℕ) (disc : ℕ) (same : Bool) (v : Option D) (a : ℕ) (ps : List (Product D × ℝ))
    (precision lo hi : ℝ) (d : D) : PyM (World D P × RateCurve D P) Unit := do
  let s ← PyM.get
  let qs ← PyM.lift (filterProducts s.1 d ps)
  let _ ← bracket precision limit (fitErr cal disc same v a d qs) lo hi
  pure ()

/-- `present_value` argument, a number or a list. -/
def targetList (target : NumArg) (n : ℕ) : List ℝ := target.expand n

/-- The loops of `get_curve_fit`, `dcf/pricer.py` lines 715-739, after the spread was attached. -/
noncomputable def fitLoop (limit : ℕ) (disc : ℕ) (same : Bool) (v : Option D) (a : ℕ) (ps : List (Product D × ℝ))
    (precision lo hi : ℝ) : PyM (World D P × RateCurve D P) (List ℝ) := do
  let s ← PyM.get
  PyM.forM (fun d => setSpreadPoint cal a d 0) s.2.base.domain
  let s ← PyM.get
  PyM.forM (fitStep cal limit disc same v a ps precision lo hi) s.2.base.domain
  let s ← PyM.get
  PyM.lift (pyMap ((s.1.curves a).toRateCurve.call cal) s.2.base.domain)

/-- `get_curve_fit`, `dcf/pricer.py` lines 581-739. -/
noncomputable def curveFit (limit : ℕ) (scipy : Bool) (sameD : D → Bool) (ps : List (Product D)) (disc : ℕ) (same : Bool)
    (v : Option D) (fitting : Option ℕ) (grid : Option (List D)) (target : NumArg) (precision lo hi : ℝ) :
    PyM (World D P) (List ℝ) := fun w =>
  let a := fitting.getD disc
  match (w.curves a).castOn cal scipy limit sameD (grid.getD (w.curves a).base.domain) with
  | .error e => (.error e, w)
  | .ok sp =>
    match setSpread a (some (sp.asSpread cal)) w with
    | (.error e, w) => (.error e, w)
    | (.ok (), w) =>
      match fitLoop cal limit disc same v a (ps.zip (targetList target ps.length)) precision lo hi (w, sp) with
      | (.error e, s) => (.error e, s.1)
      | (.ok data, s) => ((fun _ => data) <$> (setSpread a none s.1).1, (setSpread a none s.1).2)

end

end Dcf
