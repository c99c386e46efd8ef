import Verif.Model.VolCurve
import Verif.Model.RateArith
import Verif.Model.CreditArith

/-!
# Volatility curves: arithmetic, shifts and rebuilding

`dcf/curves/curve.py` lines 153-164, 293-319, 341-353, 464-489, 693-768 as inherited by the classes of
`dcf/curves/volatilitycurve.py`.  The constructors of these classes (lines 40-57, 80-95) add dates to the grid if their
first argument is a curve; if the second is one (`shifted`) they do not.
-/

namespace Dcf

section
variable {D P : Type} [LinearOrder D] (cal : Cal D P)

/-- `cls(grid, curve, ...)`, `dcf/curves/curve.py` lines 725-742. -/
noncomputable def VolCurve.castOn (cls : VolClass) (floor : Option ℝ) (scipy : Bool) (limit : ℕ) (c : VolCurve D P) (grid : List D)
    (interp : Option FuncSpec) (origin : Option D) (dc : DayCountArg D) (tenor : Option P) : Py (VolCurve D P) := do
  let data ← pyMap (cls.storage cal scipy limit c) grid
  VolCurve.new cal cls floor grid data interp (cal.or origin c.base.origin?) (dc.or c.base.dc.kwarg) tenor

/-- `type(curve)(**curve.kwargs)`, `dcf/curves/curve.py` lines 153-164. -/
noncomputable def VolCurve.rebuild (c : VolCurve D P) : Py (VolCurve D P) := do
  let ys ← pyMap (c.call cal) c.base.domain
  let i ← keepInterp none c.base.interp
  VolCurve.new cal c.cls c.floor c.base.domain ys i c.base.origin? c.base.dc.kwarg c.tenor

/-- The argument `domain` of a volatility curve: dates, a volatility curve, or `None`. -/
inductive VolDomain (D P : Type)
  | dates (l : List D)
  | curve (c : VolCurve D P)
  | none

/-- The argument `data` of a volatility curve: values or a volatility curve. -/
inductive VolData (D P : Type)
  | values (l : List ℝ)
  | curve (c : VolCurve D P)

/-- `cls(domain, data, ...)`, `dcf/curves/volatilitycurve.py` lines 40-57, 80-95 and `dcf/curves/curve.py` lines 693-746: which of
the ways to build a curve is taken. -/
noncomputable def VolCurve.construct (cls : VolClass) (floor : Option ℝ) (scipy : Bool) (limit : ℕ) (domain : VolDomain D P)
    (data : VolData D P) (interp : Option FuncSpec) (origin : Option D) (dc : DayCountArg D) (tenor : Option P) :
    Py (VolCurve D P) :=
  match domain, data with
  | .curve c, .values [] => VolCurve.cast cal cls floor scipy limit c interp origin dc tenor
  | .curve _, _ => .error .type
  | .dates l, .values v => VolCurve.new cal cls floor l v interp origin dc tenor
  | .dates l, .curve c => VolCurve.castOn cal cls floor scipy limit c l interp origin dc tenor
  | .none, .curve c => VolCurve.castOn cal cls floor scipy limit c c.base.domain interp origin dc tenor
  | .none, .values _ => .error .type

end

section
variable {D P : Type} [LinearOrder D] [AddCommGroup D] (cal : Cal D P)

/-- `curve.shifted(delta)`, `dcf/curves/curve.py` lines 341-353: a cast onto the moved grid. -/
noncomputable def VolCurve.shifted (scipy : Bool) (limit : ℕ) (c : VolCurve D P) (delta : D) : Py (VolCurve D P) :=
  VolCurve.castOn cal c.cls c.floor scipy limit c (if delta ≠ 0 then c.base.domain.map (· + delta) else c.base.domain) none none
    .default none

/-- `other` as operand: cast to the class of `self`, then `shifted` by the difference of the origins. -/
noncomputable def VolCurve.operand (scipy : Bool) (limit : ℕ) (f g : VolCurve D P) : Py (VolCurve D P) := do
  let g₁ ← VolCurve.cast cal f.cls f.floor scipy limit g none none .default none
  let delta ← originDiff f.base g₁.base
  g₁.shifted cal scipy limit delta

/-- `RateCurve.__add__`, `__sub__`, `__mul__`, `dcf/curves/curve.py` lines 754-764, 464-483, 293-306.  The object with origin and
day count is built but dropped; the result is cast to its own class, which adds dates again. -/
noncomputable def VolCurve.binop (op : ℝ → ℝ → ℝ) (scipy : Bool) (limit : ℕ) (f g : VolCurve D P) : Py (VolCurve D P) := do
  let g₂ ← f.operand cal scipy limit g
  let xs := sortedSet (f.base.domain ++ g₂.base.domain)
  let ys ← pyMap (fun x => do .ok (op (← f.call cal x) (← g₂.call cal x))) xs
  let new ← VolCurve.new cal f.cls f.floor xs ys f.base.interp none .default none
  let data ← pyMap (new.call cal) new.base.domain
  let _ ← VolCurve.new cal f.cls f.floor new.base.domain data new.base.interp f.base.origin f.base.dc none
  VolCurve.cast cal f.cls f.floor scipy limit new none none .default f.tenor

/-- `RateCurve.__div__`, `dcf/curves/curve.py` lines 766-768, 485-489, 311-319: `new.origin = self.origin` sets a property without
setter. -/
noncomputable def VolCurve.div (scipy : Bool) (limit : ℕ) (f g : VolCurve D P) : Py (VolCurve D P) := do
  let g₂ ← f.operand cal scipy limit g
  let xs := sortedSet (f.base.domain ++ g₂.base.domain)
  if ← anyZeroR (g₂.call cal) xs then throw .zeroDivision
  let ys ← pyMap (fun x => do pyDiv (← f.call cal x) (← g₂.call cal x)) xs
  let _ ← VolCurve.new cal f.cls f.floor xs ys f.base.interp none .default none
  throw .attribute

end

end Dcf
