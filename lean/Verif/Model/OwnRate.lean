import Verif.Model.OwnInterp
import Verif.Model.CreditCurve
import Verif.Model.VolCurve

/-!
# Rate curves with an interpolation written by the user

`RateCurve.__init__` hands its argument `interpolation` on to `DateCurve.__init__`, `dcf/curves/curve.py` lines 743-746.  The
curves here are those of `Model/RateCurve.lean`, `Model/CreditCurve.lean` and `Model/VolCurve.lean`; their function is the one
returned by the interpolation (`Func.own`).

Simplification: the interpolation of such a curve is an argument (`InterpArg`) of the definitions reading it, here the assignment
of points; the field `interp` of the curve is not set.  `kwargs` and arithmetic, which read it, are in `Model/OwnRateArith.lean`.
-/

namespace Dcf

section
variable {D P : Type} [LinearOrder D] (cal : Cal D P)

/-- The date curve as part of a rate curve. -/
def OwnDateCurve.date (c : OwnDateCurve D) : DateCurve D := ⟨c.domain, c.origin?, c.dc, none, c.dflt, c.fixings, .own c.func⟩

/-- `RateCurve.__init__` with point lists, `dcf/curves/curve.py` lines 743-746. -/
noncomputable def RateCurve.own (dflt : FuncSpec) (domain : List D) (data : List ℝ) (interp : InterpArg) (origin : Option D)
    (dc : DayCountArg D) (tenor : Option P) : Py (RateCurve D P) := do
  let b ← OwnDateCurve.new cal domain data interp origin dc dflt
  .ok ⟨b.date, tenor, none⟩

/-- The interest rate curve classes, `dcf/curves/interestratecurve.py` lines 282-441. -/
noncomputable def IRCurve.own (cls : IRClass) (domain : List D) (data : List ℝ) (interp : InterpArg) (origin : Option D)
    (dc : DayCountArg D) (tenor : Option P) : Py (IRCurve D P) := do
  let c ← RateCurve.own cal cls.dflt domain data interp origin dc tenor
  .ok ⟨c, cls⟩

/-- The credit curve classes, `dcf/curves/creditcurve.py` lines 41-54, 141-162, 205-212, 334-340. -/
noncomputable def CRCurve.own (cls : CRClass) (domain : List D) (data : List ℝ) (interp : InterpArg) (origin : Option D)
    (dc : DayCountArg D) (tenor : Option P) : Py (CRCurve D P) := do
  let data := cls.complement data
  let data := if cls.isProb then data.map clampProb else data
  if cls.isProb ∧ ¬ ∀ y ∈ data, y ≠ 0 then throw .value
  let c ← RateCurve.own cal cls.dflt domain data interp origin dc tenor
  .ok ⟨c, cls⟩

/-- The volatility curve classes, `dcf/curves/volatilitycurve.py` lines 34-126. -/
noncomputable def VolCurve.own (cls : VolClass) (floor : Option ℝ) (domain : List D) (data : List ℝ) (interp : InterpArg)
    (origin : Option D) (dc : DayCountArg D) (tenor : Option P) : Py (VolCurve D P) := do
  let c ← RateCurve.own cal cls.dflt domain data interp origin dc tenor
  .ok ⟨c, cls, floor⟩

/-- `curve[key] = value`, `dcf/curves/curve.py` lines 278-286: the values are read by `RateCurve.__call__`. -/
noncomputable def RateCurve.ownSetitem (interp : InterpArg) (c : RateCurve D P) (key : D) (value : ℝ) : Py (RateCurve D P) := do
  let data ← pyMap (c.call cal) c.base.domain
  let (xs, ys) := setPoint c.base.domain data key value
  let b ← OwnDateCurve.update cal ⟨c.base.domain, c.base.origin?, c.base.dc, interp, c.base.dflt, c.base.fixings, fun _ => .ok none⟩ xs ys
  .ok { c with base := b.date }

end

end Dcf
