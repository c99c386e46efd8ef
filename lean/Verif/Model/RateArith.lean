import Verif.Model.RateCurve

/-!
# Model of the arithmetic of interest rate curves (`dcf/curves/curve.py`)

`RateCurve.__add__`, `__sub__`, `__mul__`, `__div__` lines 754-768 go through `DateCurve.__add__` etc. lines 464-489,
`Curve.shifted` lines 341-353 and `Curve.__add__` etc. lines 293-319.

Simplifications: as in `Model/RateCurve.lean`; `same₁`, `same₂`, `same₃` tell for the three casts on the way which dates
are the origin object.
-/

namespace Dcf

section
variable {D P : Type} [LinearOrder D] [AddCommGroup D] (cal : Cal D P)

/-- `other` as operand: cast to the class of `self` (`self.__class__(other)`), then `shifted` by the difference of the origins,
which is a further cast onto the moved grid. -/
noncomputable def IRCurve.operand (limit : ℕ) (same₁ same₂ : D → Bool) (f g : IRCurve D P) : Py (IRCurve D P) := do
  let g₁ ← g.cast cal f.cls limit same₁ none none .default none
  let delta ← originDiff f.base g₁.base
  let grid := if delta ≠ 0 then g₁.base.domain.map (· + delta) else g₁.base.domain
  g₁.castOn cal f.cls limit same₂ grid none none .default none

/-- `RateCurve.__add__`, `__sub__`, `__mul__`, lines 754-764.  The object with origin and day count is built but dropped
(lines 467-468); the result is cast to its own class. -/
noncomputable def IRCurve.binop (op : ℝ → ℝ → ℝ) (limit : ℕ) (same₁ same₂ same₃ : D → Bool) (f g : IRCurve D P) :
    Py (IRCurve D P) := do
  let g₂ ← f.operand cal limit same₁ same₂ g
  let xs := sortedSet (f.base.domain ++ g₂.base.domain)
  let ys ← pyMap (fun x => do .ok (op (← f.call cal x) (← g₂.call cal x))) xs
  let new ← IRCurve.new cal f.cls xs ys f.base.interp none .default none
  let data ← pyMap (new.call cal) new.base.domain
  let _ ← IRCurve.new cal f.cls new.base.domain data new.base.interp f.base.origin f.base.dc none
  new.cast cal f.cls limit same₃ none none .default f.tenor

/-- `curve.shifted(delta)`, lines 341-353: a cast onto the moved grid, all other arguments at their defaults. -/
noncomputable def IRCurve.shifted (limit : ℕ) (same : D → Bool) (c : IRCurve D P) (delta : D) : Py (IRCurve D P) :=
  c.castOn cal c.cls limit same (if delta ≠ 0 then c.base.domain.map (· + delta) else c.base.domain) none none .default none

/-- Whether `other` is zero somewhere on the grid, lines 313-315. -/
noncomputable def anyZeroR (g : D → Py ℝ) : List D → Py Bool
  | [] => .ok false
  | x :: l => do
    let v ← g x
    if v = 0 then .ok true else anyZeroR g l

/-- `RateCurve.__div__`, lines 766-768: `new.origin = self.origin` (line 488) sets a property without setter. -/
noncomputable def IRCurve.div (limit : ℕ) (same₁ same₂ : D → Bool) (f g : IRCurve D P) : Py (IRCurve D P) := do
  let g₂ ← f.operand cal limit same₁ same₂ g
  let xs := sortedSet (f.base.domain ++ g₂.base.domain)
  if ← anyZeroR (g₂.call cal) xs then throw .zeroDivision
  let ys ← pyMap (fun x => do pyDiv (← f.call cal x) (← g₂.call cal x)) xs
  let _ ← IRCurve.new cal f.cls xs ys f.base.interp none .default none
  throw .attribute

end

/-! ## Constructor arguments -/

/-- The argument `domain` of a rate curve: dates, a rate curve, or `None`. -/
inductive RateDomain (D P : Type)
  | dates (l : List D)
  | curve (c : IRCurve D P)
  | none

/-- The argument `data` of a rate curve: values or a rate curve. -/
inductive RateData (D P : Type)
  | values (l : List ℝ)
  | curve (c : IRCurve D P)

/-- `cls(domain, data, ...)`, `dcf/curves/curve.py` lines 693-746 and `dcf/curves/interestratecurve.py` lines 294-309, 395-415:
which of the ways to build a curve is taken.  `len(None)` is a `TypeError`. -/
noncomputable def IRCurve.construct {D P : Type} [LinearOrder D] (cal : Cal D P) (cls : IRClass) (limit : ℕ) (same : D → Bool)
    (domain : RateDomain D P) (data : RateData D P) (interp : Option FuncSpec) (origin : Option D) (dc : DayCountArg D)
    (tenor : Option P) : Py (IRCurve D P) :=
  match domain, data with
  | .curve c, .values [] => c.cast cal cls limit same interp origin dc tenor
  | .curve _, _ => .error .type
  | .dates l, .values v => IRCurve.new cal cls l v interp origin dc tenor
  | .dates l, .curve c => c.castOn cal cls limit same l interp origin dc tenor
  | .none, .curve c => c.castOn cal cls limit same c.base.domain interp origin dc tenor
  | .none, .values _ => .error .type

end Dcf
