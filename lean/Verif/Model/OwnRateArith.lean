import Verif.Model.OwnRate
import Verif.Model.RateArith
import Verif.Model.CreditArith
import Verif.Model.VolArith

/-!
# Arithmetic and `kwargs` of rate curves with an interpolation written by the user

The methods of `Model/RateArith.lean`, `Model/CreditArith.lean`, `Model/VolArith.lean` and `IRCurve.rebuild` where they read `self._interpolation`, `dcf/curves/curve.py` lines
153-164, 293-319, 464-489 and 754-768.  Casts and shifts do not read it; those of the other
models are used as they are.

Simplifications: as in `Model/OwnRate.lean`, the interpolation of the first curve is an argument; casts read `kwargs`, which
evaluates the curve on its domain, and an exception raised there is not modelled.
-/

namespace Dcf

section
variable {D P : Type} [LinearOrder D] (cal : Cal D P)

/-- `type(curve)(**curve.kwargs)`, lines 153-164: a function is replaced by its name. -/
noncomputable def IRCurve.ownRebuild (i : InterpArg) (c : IRCurve D P) : Py (IRCurve D P) := do
  let ys ← pyMap (c.call cal) c.base.domain
  IRCurve.own cal c.cls c.base.domain ys i.kwarg c.base.origin? c.base.dc.kwarg c.tenor

/-- The same for credit curves: the values go through the constructor again. -/
noncomputable def CRCurve.ownRebuild (i : InterpArg) (c : CRCurve D P) : Py (CRCurve D P) := do
  let ys ← pyMap (c.call cal) c.base.domain
  CRCurve.own cal c.cls c.base.domain ys i.kwarg c.base.origin? c.base.dc.kwarg c.tenor

/-- The same for volatility curves. -/
noncomputable def VolCurve.ownRebuild (i : InterpArg) (c : VolCurve D P) : Py (VolCurve D P) := do
  let ys ← pyMap (c.call cal) c.base.domain
  VolCurve.own cal c.cls c.floor c.base.domain ys i.kwarg c.base.origin? c.base.dc.kwarg c.tenor

variable [AddCommGroup D]

/-- `RateCurve.__add__`, `__sub__`, `__mul__`, lines 754-764, for a first curve with interpolation `i`: the curve of the sums has it,
the result, cast to its own class, does not. -/
noncomputable def IRCurve.ownBinop (i : InterpArg) (op : ℝ → ℝ → ℝ) (limit : ℕ) (same₁ same₂ same₃ : D → Bool)
    (f g : IRCurve D P) : Py (IRCurve D P) := do
  let g₂ ← f.operand cal limit same₁ same₂ g
  let xs := sortedSet (f.base.domain ++ g₂.base.domain)
  let ys ← pyMap (fun x => do .ok (op (← f.call cal x) (← g₂.call cal x))) xs
  let new ← IRCurve.own cal f.cls xs ys i none .default none
  let data ← pyMap (new.call cal) new.base.domain
  let _ ← IRCurve.own cal f.cls new.base.domain data i f.base.origin f.base.dc none
  new.cast cal f.cls limit same₃ none none .default f.tenor

/-- `RateCurve.__div__`, lines 766-768, for a first curve with interpolation `i`. -/
noncomputable def IRCurve.ownDiv (i : InterpArg) (limit : ℕ) (same₁ same₂ : D → Bool) (f g : IRCurve D P) : Py (IRCurve D P) := do
  let g₂ ← f.operand cal limit same₁ same₂ g
  let xs := sortedSet (f.base.domain ++ g₂.base.domain)
  if ← anyZeroR (g₂.call cal) xs then throw .zeroDivision
  let ys ← pyMap (fun x => do pyDiv (← f.call cal x) (← g₂.call cal x)) xs
  let _ ← IRCurve.own cal f.cls xs ys i none .default none
  throw .attribute

/-- The same for credit curves; the constructor takes complements and clamps. -/
noncomputable def CRCurve.ownBinop (i : InterpArg) (op : ℝ → ℝ → ℝ) (limit : ℕ) (same₁ same₂ same₃ : D → Bool)
    (f g : CRCurve D P) : Py (CRCurve D P) := do
  let g₂ ← f.operand cal limit same₁ same₂ g
  let xs := sortedSet (f.base.domain ++ g₂.base.domain)
  let ys ← pyMap (fun x => do .ok (op (← f.call cal x) (← g₂.call cal x))) xs
  let new ← CRCurve.own cal f.cls xs ys i none .default none
  let data ← pyMap (new.call cal) new.base.domain
  let _ ← CRCurve.own cal f.cls new.base.domain data i f.base.origin f.base.dc none
  new.cast cal f.cls limit same₃ none none .default f.tenor

/-- The same for volatility curves. -/
noncomputable def VolCurve.ownBinop (i : InterpArg) (op : ℝ → ℝ → ℝ) (scipy : Bool) (limit : ℕ) (f g : VolCurve D P) :
    Py (VolCurve D P) := do
  let g₂ ← f.operand cal scipy limit g
  let xs := sortedSet (f.base.domain ++ g₂.base.domain)
  let ys ← pyMap (fun x => do .ok (op (← f.call cal x) (← g₂.call cal x))) xs
  let new ← VolCurve.own cal f.cls f.floor xs ys i none .default none
  let data ← pyMap (new.call cal) new.base.domain
  let _ ← VolCurve.own cal f.cls f.floor new.base.domain data i f.base.origin f.base.dc none
  VolCurve.cast cal f.cls f.floor scipy limit new none none .default f.tenor

/-- `__div__` of credit curves. -/
noncomputable def CRCurve.ownDiv (i : InterpArg) (limit : ℕ) (same₁ same₂ : D → Bool) (f g : CRCurve D P) : Py (CRCurve D P) := do
  let g₂ ← f.operand cal limit same₁ same₂ g
  let xs := sortedSet (f.base.domain ++ g₂.base.domain)
  if ← anyZeroR (g₂.call cal) xs then throw .zeroDivision
  let ys ← pyMap (fun x => do pyDiv (← f.call cal x) (← g₂.call cal x)) xs
  let _ ← CRCurve.own cal f.cls xs ys i none .default none
  throw .attribute

/-- `__div__` of volatility curves. -/
noncomputable def VolCurve.ownDiv (i : InterpArg) (scipy : Bool) (limit : ℕ) (f g : VolCurve D P) : Py (VolCurve D P) := do
  let g₂ ← f.operand cal scipy limit g
  let xs := sortedSet (f.base.domain ++ g₂.base.domain)
  if ← anyZeroR (g₂.call cal) xs then throw .zeroDivision
  let ys ← pyMap (fun x => do pyDiv (← f.call cal x) (← g₂.call cal x)) xs
  let _ ← VolCurve.own cal f.cls f.floor xs ys i none .default none
  throw .attribute

end

end Dcf
