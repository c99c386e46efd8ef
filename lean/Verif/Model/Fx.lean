import Verif.Model.Curve

/-!
# Model of `dcf/curves/fx.py`

Simplifications:
* a rate curve handed to an fx object is its `get_discount_factor(start, stop)` function;
* currencies are interned objects, so `is` and `==` agree;
* arguments have the types asked for by the `isinstance` checks (`AssertionError` otherwise; a spot
  given as `int` is such a case);
* every pair of a container owns its `FxForwardCurve` object, so an attribute assignment is an update of
  that entry.
-/

namespace Dcf

/-- `FxForwardCurve`, lines 21-28. -/
structure FxCurve (D : Type) where
  base : ForwardCurve D
  /-- `domestic_curve.get_discount_factor` -/
  domestic : D → D → Py ℝ
  /-- `foreign_curve.get_discount_factor` -/
  foreign : D → D → Py ℝ

section
variable {D P : Type} [LinearOrder D] (cal : Cal D P)

/-- `FxForwardCurve.__init__`, lines 23-28; the yield curve stays at its default `0.0`. -/
noncomputable def FxCurve.new (domain : List D) (data : List ℝ) (interp : Option FuncSpec) (origin : Option D)
    (dc : DayCountArg D) (domestic foreign : D → D → Py ℝ) : Py (FxCurve D) := do
  let b ← ForwardCurve.new cal domain data interp origin dc (.flat 0)
  .ok ⟨b, domestic, foreign⟩

/-- `FxForwardCurve.get_forward_price`, lines 30-38, also `__call__` (`dcf/curves/curve.py` lines 622-626). -/
noncomputable def FxCurve.price (c : FxCurve D) (value_date : D) : Py (Option ℝ) := do
  let last_date ← pyLast c.base.base.domain
  if value_date ≤ last_date then c.base.price cal value_date
  else
    let y ← c.base.price cal last_date
    let d ← c.domestic last_date value_date
    let f ← c.foreign last_date value_date
    let y ← pyNum y
    let q ← pyDiv y f
    .ok (some (q * d))

/-- `FxContainer`, lines 81-116. -/
structure FxContainer (C D : Type) where
  currency : C
  domestic : D → D → Py ℝ
  /-- `domestic_curve.origin` -/
  origin : D
  rates : Dict (C × C) (FxCurve D)

variable {C : Type} [DecidableEq C]

/-- `self[d, f]` for a pair, lines 118-130: a missing pair is an `AssertionError`. -/
def FxContainer.get (c : FxContainer C D) (k : C × C) : Py (FxCurve D) :=
  match c.rates.get k with
  | some x => .ok x
  | none => .error .assertion

/-- A single fx rate as a curve, lines 162-169 and 182-189. -/
noncomputable def FxContainer.curve (c : FxContainer C D) (spot : ℝ) (domestic foreign : D → D → Py ℝ) : Py (FxCurve D) :=
  FxCurve.new cal [c.origin] [spot] none none .default domestic foreign

/-- One round of the loop in `FxContainer.add` for the key `(d, s)`, lines 173-189.  The attribute `fx_spot`
is never read again and left out (but `1 / triangulated` is evaluated). -/
noncomputable def FxContainer.addStep (f : C) (curve : D → D → Py ℝ) (fx_spot : ℝ)
    (st : FxContainer C D × Dict (C × C) (FxCurve D)) (k : C × C) :
    Py (FxContainer C D × Dict (C × C) (FxCurve D)) := do
  let (c, new) := st
  let (d, s) := k
  if s = c.currency ∧ d ≠ f then
    let ds ← c.get (d, s)
    let y ← ds.price cal c.origin
    let y ← pyNum y
    let triangulated := y * fx_spot
    match c.rates.get (d, f) with
    | some df =>
      let c := { c with rates := c.rates.set (d, f) { df with foreign := curve } }
      let fd ← c.get (f, d)
      let c := { c with rates := c.rates.set (f, d) { fd with domestic := curve } }
      let _ ← pyDiv 1 triangulated
      .ok (c, new)
    | none =>
      let a ← c.curve cal triangulated ds.domestic curve
      let new := new.set (d, f) a
      let i ← pyDiv 1 triangulated
      let b ← c.curve cal i curve ds.domestic
      .ok (c, new.set (f, d) b)
  else .ok (c, new)

/-- The loop, lines 173-189. -/
noncomputable def FxContainer.addLoop (f : C) (curve : D → D → Py ℝ) (fx_spot : ℝ) :
    List (C × C) → FxContainer C D × Dict (C × C) (FxCurve D) → Py (FxContainer C D × Dict (C × C) (FxCurve D))
  | [], st => .ok st
  | k :: l, st => do
    let st ← FxContainer.addStep cal f curve fx_spot st k
    FxContainer.addLoop f curve fx_spot l st

/-- `dict.update` -/
def Dict.updateWith {α β : Type} [DecidableEq α] (d new : Dict α β) : Dict α β :=
  new.foldl (fun d p => Dict.set d p.1 p.2) d

/-- `FxContainer.add`, lines 148-190. -/
noncomputable def FxContainer.add (c : FxContainer C D) (f : C) (curve : D → D → Py ℝ) (fx_spot : ℝ) :
    Py (FxContainer C D) := do
  let a ← c.curve cal fx_spot c.domestic curve
  let c := { c with rates := c.rates.set (c.currency, f) a }
  let i ← pyDiv 1 fx_spot
  let b ← c.curve cal i c.domestic curve
  let c := { c with rates := c.rates.set (f, c.currency) b }
  let (c, new) ← FxContainer.addLoop cal f curve fx_spot (c.rates.map Prod.fst) (c, [])
  .ok { c with rates := c.rates.updateWith new }

/-- `FxContainer.__init__`, lines 107-116. -/
noncomputable def FxContainer.new (currency : C) (domestic : D → D → Py ℝ) (origin : D) : Py (FxContainer C D) :=
  FxContainer.add cal ⟨currency, domestic, origin, []⟩ currency domestic 1

/-- `FxContainer.get_forward_price`, lines 192-195. -/
noncomputable def FxContainer.price (c : FxContainer C D) (d f : C) (value_date : D) : Py (Option ℝ) := do
  let x ← c.get (d, f)
  x.price cal value_date

/-- `container[d, f] = x`, lines 132-139. -/
def FxContainer.setPair (c : FxContainer C D) (k : C × C) (x : FxCurve D) : FxContainer C D :=
  { c with rates := c.rates.set k x }

/-- `container[f] = x` for a single currency, lines 140-146.  Whether the domestic curve of `x` is that of the container
(rate curves are compared as objects) is the parameter `same`.  A price `None` is no `float`. -/
noncomputable def FxContainer.setCurve (c : FxContainer C D) (same : Bool) (f : C) (x : FxCurve D) :
    Py (FxContainer C D) := do
  if ¬ same then throw .assertion
  match ← x.price cal c.origin with
  | none => throw .assertion
  | some y => c.add cal f x.foreign y

/-- `container[d]` for a single currency, lines 118-130: a dictionary of all pairs starting with `d`. -/
def FxContainer.getAll (c : FxContainer C D) (item : C) : Dict C (FxCurve D) :=
  Dict.ofPairs (c.rates.filterMap fun p => if p.1.1 = item then (c.rates.get p.1).map fun x => (p.1.2, x) else none)

/-- `FxForwardCurve(**curve.kwargs)`, `dcf/curves/curve.py` lines 153-164 and lines 23-28: there are no attributes
`_domestic_curve` and `_foreign_curve`, so both curves are `None`. -/
noncomputable def FxCurve.rebuild (c : FxCurve D) : Py (FxCurve D) := do
  let ys ← pyMap (fun x => do pyNum (← c.price cal x)) c.base.base.domain
  let i ← keepInterp none c.base.base.interp
  FxCurve.new cal c.base.base.domain ys i c.base.base.origin? c.base.base.dc.kwarg (fun _ _ => .error .attribute)
    (fun _ _ => .error .attribute)

/-- A history: additions one after the other. -/
noncomputable def FxContainer.addAll (c : FxContainer C D) : List (C × (D → D → Py ℝ) × ℝ) → Py (FxContainer C D)
  | [] => .ok c
  | (f, curve, spot) :: l => do
    let c ← c.add cal f curve spot
    c.addAll l

end

section
variable {D P : Type} [AddCommGroup D] [LinearOrder D] (cal : Cal D P)

/-- Price as a number in arithmetic. -/
noncomputable def FxCurve.num (c : FxCurve D) (x : D) : Py ℝ := do pyNum (← c.price cal x)

/-- `FxForwardCurve(domain, curve)`, also `shifted`, `dcf/curves/curve.py` lines 341-353 and 426-436, with lines 23-28: both
curves are `None`. -/
noncomputable def FxCurve.shifted (c : FxCurve D) (delta : D) : Py (FxCurve D) := do
  let x_list := if delta ≠ 0 then c.base.base.domain.map (· + delta) else c.base.base.domain
  let ys ← pyMap (c.num cal) x_list
  let i ← keepInterp none c.base.base.interp
  FxCurve.new cal x_list ys i c.base.base.origin? c.base.base.dc.kwarg (fun _ _ => .error .attribute)
    (fun _ _ => .error .attribute)

/-- `FxForwardCurve.__add__`, `__sub__`, `__mul__`: those of `DateCurve` and `Curve`, `dcf/curves/curve.py` lines 464-483 and
293-306, with the constructor and the call of fx curves (lines 23-38): both curves of the result are `None`. -/
noncomputable def FxCurve.binop (op : ℝ → ℝ → ℝ) (f g : FxCurve D) : Py (FxCurve D) := do
  let delta ← originDiff f.base.base g.base.base
  let g' ← g.shifted cal delta
  let x_list := sortedSet (f.base.base.domain ++ g'.base.base.domain)
  let y_list ← pyMap (fun x => do .ok (op (← f.num cal x) (← g'.num cal x))) x_list
  let none' : D → D → Py ℝ := fun _ _ => .error .attribute
  let new ← FxCurve.new cal x_list y_list f.base.base.interp none .default none' none'
  let data ← pyMap (new.num cal) new.base.base.domain
  let _ ← FxCurve.new cal new.base.base.domain data new.base.base.interp f.base.base.origin f.base.base.dc none' none'
  .ok new

end

end Dcf
