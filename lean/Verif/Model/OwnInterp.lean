import Verif.Model.Curve

/-!
# Curves with an interpolation written by the user

`Curve.__init__` takes any function as `interpolation`, `dcf/curves/curve.py` lines 179-205: it is called with the points
sorted by `x` and returns the function of the curve.  Here such functions are arguments; the classes of
`dcf/interpolation.py` are one case of them (`libFit`).

Simplification: `Curve.INTERPOLATIONS` has only strings as keys.
-/

namespace Dcf

/-- An interpolation function: given the points it returns a function, or raises. -/
abbrev Fit := List ℝ → List ℝ → Py (ℝ → Py (Option ℝ))

/-- A class of `dcf/interpolation.py` as a function of the points. -/
noncomputable def libFit (s : FuncSpec) : Fit := fun xs ys => Func.call <$> Func.new s xs ys

/-- An `interpolation` argument.  `func f r` is a function or class `f` whose `__name__`, looked up in `Curve.INTERPOLATIONS`
and then among the names of `dcf/interpolation.py`, is found as `r`.  `named r` is a string, found as `r`, or a callable object
without a name (then `r = some f`). -/
inductive InterpArg
  | default
  | func (f : Fit) (found : Option Fit)
  | named (found : Option Fit)

/-- `kwargs.interpolation`, `dcf/curves/curve.py` lines 153-164: a function is replaced by its name. -/
def InterpArg.kwarg : InterpArg → InterpArg
  | .func _ r => .named r
  | i => i

/-- Looking up and calling the interpolation, `dcf/curves/curve.py` lines 255-264.  A string that is not found is called:
`TypeError`. -/
def InterpArg.call (dflt : Fit) (i : InterpArg) : Fit :=
  match i with
  | .default => dflt
  | .func f _ => f
  | .named (some f) => f
  | .named none => fun _ _ => .error .type

/-- `Curve._update`, lines 254-265. -/
noncomputable def ownFit (f : Fit) (xs ys : List ℝ) : Py (List ℝ × (ℝ → Py (Option ℝ))) := do
  let pts := sortPairs (xs.zip ys)
  let g ← f (pts.map Prod.fst) (pts.map Prod.snd)
  .ok (pts.map Prod.fst, g)

/-- `Curve` -/
structure OwnCurve where
  domain : List ℝ
  interp : InterpArg
  func : ℝ → Py (Option ℝ)

/-- `Curve.__init__`, lines 240-252. -/
noncomputable def OwnCurve.new (domain data : List ℝ) (interp : InterpArg) : Py OwnCurve := do
  if ¬ domain.length = data.length then throw .value
  let (d, f) ← ownFit (interp.call (libFit linearScheme)) domain data
  .ok ⟨d, interp, f⟩

/-- `Curve.__call__`, lines 288-291. -/
def OwnCurve.call (c : OwnCurve) (x : ℝ) : Py (Option ℝ) := c.func x

/-- Value as a number in arithmetic. -/
def OwnCurve.num (c : OwnCurve) (x : ℝ) : Py ℝ := do pyNum (← c.call x)

/-- `Curve.__getitem__`, lines 273-276. -/
noncomputable def OwnCurve.getitem (c : OwnCurve) (x : ℝ) : Py (Option ℝ) :=
  if x ∈ c.domain then c.call x else .error .key

/-- `Curve.__setitem__`, lines 278-286. -/
noncomputable def OwnCurve.setitem (c : OwnCurve) (key value : ℝ) : Py OwnCurve := do
  let data ← pyMap c.num c.domain
  let (xs, ys) := setPoint c.domain data key value
  let (d, f) ← ownFit (c.interp.call (libFit linearScheme)) xs ys
  .ok ⟨d, c.interp, f⟩

/-- `Curve.__add__`, `__sub__`, `__mul__`, lines 293-306. -/
noncomputable def OwnCurve.binop (op : ℝ → ℝ → ℝ) (f g : OwnCurve) : Py OwnCurve := do
  let x_list := sortedSet (f.domain ++ g.domain)
  let y_list ← pyMap (fun x => do .ok (op (← f.num x) (← g.num x))) x_list
  OwnCurve.new x_list y_list f.interp

/-- `curve.kwargs.interpolation`, lines 153-164: all the arguments are computed, `data` among them. -/
def OwnCurve.kwargs (c : OwnCurve) : Py InterpArg := do
  let _ ← pyMap c.call c.domain
  .ok c.interp.kwarg

/-- `Curve(domain, curve, interpolation)`, lines 231-238; `kwargs` is computed only if no interpolation is given. -/
noncomputable def OwnCurve.resample (domain : List ℝ) (data : OwnCurve) (interp : InterpArg) : Py OwnCurve := do
  let i ← match interp with
    | .default => data.kwargs
    | i => .ok i
  let ys ← pyMap data.num domain
  OwnCurve.new domain ys i

/-- `Curve(curve, interpolation=interp)`, lines 228-238. -/
noncomputable def OwnCurve.copy (c : OwnCurve) (interp : InterpArg) : Py OwnCurve := OwnCurve.resample c.domain c interp

/-- `Curve.shifted`, lines 341-353. -/
noncomputable def OwnCurve.shifted (c : OwnCurve) (delta : ℝ) : Py OwnCurve :=
  OwnCurve.resample (if delta ≠ 0 then c.domain.map (· + delta) else c.domain) c .default

/-- `DateCurve`, lines 356-578. -/
structure OwnDateCurve (D : Type) where
  domain : List D
  origin? : Option D
  dc : DayCountArg D
  interp : InterpArg
  dflt : FuncSpec
  fixings : Dict D ℝ
  func : ℝ → Py (Option ℝ)

section
variable {D P : Type} [DecidableEq D] (cal : Cal D P)

/-- `DateCurve.origin`, lines 444-450. -/
def OwnDateCurve.origin (c : OwnDateCurve D) : Option D := c.origin?.or c.domain.head?

/-- `self.day_count(x)`, lines 498-505. -/
def OwnDateCurve.time (c : OwnDateCurve D) (x : D) : Py ℝ := do
  let o ← pyDate c.origin
  c.dc.eval cal o x

/-- `DateCurve._update`, lines 452-455. -/
noncomputable def OwnDateCurve.update (c : OwnDateCurve D) (domain : List D) (data : List ℝ) : Py (OwnDateCurve D) := do
  let flt ← pyMap (c.time cal) domain
  let (_, f) ← ownFit (c.interp.call (libFit c.dflt)) flt data
  .ok { c with domain := domain, func := f }

/-- `DateCurve.__init__`, lines 432-436, 240-252. -/
noncomputable def OwnDateCurve.new (domain : List D) (data : List ℝ) (interp : InterpArg) (origin : Option D)
    (dc : DayCountArg D) (dflt : FuncSpec) : Py (OwnDateCurve D) := do
  if ¬ domain.length = data.length then throw .value
  OwnDateCurve.update cal ⟨domain, origin, dc, interp, dflt, [], fun _ => .ok none⟩ domain data

/-- `DateCurve.__call__`, lines 457-462. -/
def OwnDateCurve.call (c : OwnDateCurve D) (x : D) : Py (Option ℝ) :=
  match c.fixings.get x with
  | some y => .ok (some y)
  | none => do c.func (← c.time cal x)

/-- Value as a number in arithmetic. -/
def OwnDateCurve.num (c : OwnDateCurve D) (x : D) : Py ℝ := do pyNum (← c.call cal x)

/-- `Curve.__setitem__` on a date curve, lines 278-286. -/
noncomputable def OwnDateCurve.setitem (c : OwnDateCurve D) (key : D) (value : ℝ) : Py (OwnDateCurve D) := do
  let data ← pyMap (c.num cal) c.domain
  let (xs, ys) := setPoint c.domain data key value
  c.update cal xs ys

/-- `DateCurve(domain, curve)` without further arguments, lines 426-436. -/
noncomputable def OwnDateCurve.resample (domain : List D) (data : OwnDateCurve D) : Py (OwnDateCurve D) := do
  let _ ← pyMap (data.call cal) data.domain
  let ys ← pyMap (data.num cal) domain
  OwnDateCurve.new cal domain ys data.interp.kwarg data.origin? data.dc.kwarg data.dflt

end

end Dcf
