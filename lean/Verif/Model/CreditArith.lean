import Verif.Model.CreditCurve
import Verif.Model.RateArith

/-!
# Credit curves: arithmetic, shifts, rebuilding and constructor arguments

`dcf/curves/curve.py` lines 153-164, 293-319, 341-353, 464-489, 693-768 as inherited by the classes of
`dcf/curves/creditcurve.py`.  Simplifications as in `Model/RateArith.lean`.
-/

namespace Dcf

section
variable {D P : Type} [LinearOrder D] (cal : Cal D P)

/-- `type(curve)(**curve.kwargs)`, `dcf/curves/curve.py` lines 153-164: the values on the domain are handed to the constructor,
which for default probabilities takes the complement. -/
noncomputable def CRCurve.rebuild (c : CRCurve D P) : Py (CRCurve D P) := do
  let ys ← pyMap (c.call cal) c.base.domain
  let i ← keepInterp none c.base.interp
  CRCurve.new cal c.cls c.base.domain ys i c.base.origin? c.base.dc.kwarg c.tenor

/-- The argument `domain` of a credit curve: dates, a credit curve, or `None`. -/
inductive CreditDomain (D P : Type)
  | dates (l : List D)
  | curve (c : CRCurve D P)
  | none

/-- The argument `data` of a credit curve: values or a credit curve. -/
inductive CreditData (D P : Type)
  | values (l : List ℝ)
  | curve (c : CRCurve D P)

/-- `cls(domain, data, ...)`, `dcf/curves/creditcurve.py` lines 41-54, 141-162, 205-212, 334-340 and `dcf/curves/curve.py` lines
693-746: which of the ways to build a curve is taken. -/
noncomputable def CRCurve.construct (cls : CRClass) (limit : ℕ) (same : D → Bool) (domain : CreditDomain D P)
    (data : CreditData D P) (interp : Option FuncSpec) (origin : Option D) (dc : DayCountArg D) (tenor : Option P) :
    Py (CRCurve D P) :=
  match domain, data with
  | .curve c, .values [] => c.cast cal cls limit same interp origin dc tenor
  | .curve _, _ => .error .type
  | .dates l, .values v => CRCurve.new cal cls l v interp origin dc tenor
  | .dates l, .curve c => c.castOn cal cls limit same l interp origin dc tenor
  | .none, .curve c => c.castOn cal cls limit same c.base.domain interp origin dc tenor
  | .none, .values _ => .error .type

end

section
variable {D P : Type} [LinearOrder D] [AddCommGroup D] (cal : Cal D P)

/-- `curve.shifted(delta)`, `dcf/curves/curve.py` lines 341-353: a cast onto the moved grid. -/
noncomputable def CRCurve.shifted (limit : ℕ) (same : D → Bool) (c : CRCurve D P) (delta : D) : Py (CRCurve D P) :=
  c.castOn cal c.cls limit same (if delta ≠ 0 then c.base.domain.map (· + delta) else c.base.domain) none none .default none

/-- `other` as operand: cast to the class of `self`, then `shifted` by the difference of the origins. -/
noncomputable def CRCurve.operand (limit : ℕ) (same₁ same₂ : D → Bool) (f g : CRCurve D P) : Py (CRCurve D P) := do
  let g₁ ← g.cast cal f.cls limit same₁ none none .default none
  let delta ← originDiff f.base g₁.base
  g₁.shifted cal limit same₂ delta

/-- `RateCurve.__add__`, `__sub__`, `__mul__`, `dcf/curves/curve.py` lines 754-764, 464-483, 293-306: the values are handed to the
constructor (complemented and clamped), the result is cast to its own class. -/
noncomputable def CRCurve.binop (op : ℝ → ℝ → ℝ) (limit : ℕ) (same₁ same₂ same₃ : D → Bool) (f g : CRCurve D P) :
    Py (CRCurve D P) := do
  let g₂ ← f.operand cal limit same₁ same₂ g
  let xs := sortedSet (f.base.domain ++ g₂.base.domain)
  let ys ← pyMap (fun x => do .ok (op (← f.call cal x) (← g₂.call cal x))) xs
  let new ← CRCurve.new cal f.cls xs ys f.base.interp none .default none
  let data ← pyMap (new.call cal) new.base.domain
  let _ ← CRCurve.new cal f.cls new.base.domain data new.base.interp f.base.origin f.base.dc none
  new.cast cal f.cls limit same₃ none none .default f.tenor

/-- `RateCurve.__div__`, `dcf/curves/curve.py` lines 766-768, 485-489, 311-319. -/
noncomputable def CRCurve.div (limit : ℕ) (same₁ same₂ : D → Bool) (f g : CRCurve D P) : Py (CRCurve D P) := do
  let g₂ ← f.operand cal limit same₁ same₂ g
  let xs := sortedSet (f.base.domain ++ g₂.base.domain)
  if ← anyZeroR (g₂.call cal) xs then throw .zeroDivision
  let ys ← pyMap (fun x => do pyDiv (← f.call cal x) (← g₂.call cal x)) xs
  let _ ← CRCurve.new cal f.cls xs ys f.base.interp none .default none
  throw .attribute

end

end Dcf
