import Verif.Model.RoundedLegs
import Verif.Model.Pricer

/-!
# Bucketed deltas in floating point arithmetic

As in `Verif.Model.Rounded` with a rounding after every operation, in the order of the operations of the code.
-/

namespace Dcf

namespace Rounded

section
variable (rnd : ℝ → ℝ)

/-- `self._spread(x) if self._spread else 0.0`, `dcf/curves/curve.py` line 751; the spread is none or `DateCurve(grid, shifts)`. -/
noncomputable def spreadCall (spread : Option (List (PyDate ℝ) × List ℝ)) (x : PyDate ℝ) : Py ℝ :=
  match spread with
  | none => .ok 0
  | some g => do
    let o ← pyDate g.1.head?
    dateCall rnd o g.1 g.2 x

/-- `RateCurve.__call__`, `dcf/curves/curve.py` lines 748-752, with default day count and interpolation. -/
noncomputable def spreadRate (origin : PyDate ℝ) (dates : List (PyDate ℝ)) (data : List ℝ) (spread : Option (List (PyDate ℝ) × List ℝ)) (x : PyDate ℝ) : Py ℝ := do
  let s ← spreadCall rnd spread x
  let y ← dateCall rnd origin dates data x
  .ok (rnd (y + s))

/-- `ZeroRateCurve.get_discount_factor(stop)`, `dcf/curves/curve.py` lines 770-776 and `dcf/curves/interestratecurve.py` lines 341-342, of a curve with a spread. -/
noncomputable def spreadDiscount (exp : ℝ → ℝ) (origin : PyDate ℝ) (dates : List (PyDate ℝ)) (data : List ℝ) (spread : Option (List (PyDate ℝ) × List ℝ))
    (x : PyDate ℝ) : Py ℝ := do
  let t ← dayCount rnd origin x
  if t = 0 then .ok 1
  else
    let ir ← spreadRate rnd origin dates data spread x
    continuousCompounding rnd exp ir t

/-- `get_present_value`, `dcf/pricer.py` lines 106-114, of flows at dates on such a curve. -/
noncomputable def spreadValue (exp : ℝ → ℝ) (origin : PyDate ℝ) (dates : List (PyDate ℝ)) (data : List ℝ) (flows : List (PyDate ℝ × ℝ))
    (spread : Option (List (PyDate ℝ) × List ℝ)) : Py ℝ := do
  let values ← pyMap (fun f : PyDate ℝ × ℝ => do
    let df ← spreadDiscount rnd exp origin dates data spread f.1
    .ok (rnd (df * f.2))) flows
  .ok (sum rnd values)

/-- `get_bucketed_delta`, `dcf/pricer.py` lines 548-578, of flows at dates on a zero rate curve. -/
noncomputable def bucketedDelta (exp : ℝ → ℝ) (origin : PyDate ℝ) (dates : List (PyDate ℝ)) (data : List ℝ) (flows : List (PyDate ℝ × ℝ))
    (grid : List (PyDate ℝ)) (shift : ℝ) : Py (List ℝ) := do
  let pv ← spreadValue rnd exp origin dates data flows none
  let gs ← bucketShifts shift grid
  pyMap (fun g => do
    let sh ← spreadValue rnd exp origin dates data flows (some g)
    basisPoint rnd pv sh shift) gs

/-- `get_basis_point_value`, `dcf/pricer.py` lines 418-430, of flows at dates on a zero rate curve. -/
noncomputable def basisPointValue (exp : ℝ → ℝ) (origin : PyDate ℝ) (dates : List (PyDate ℝ)) (data : List ℝ) (flows : List (PyDate ℝ × ℝ)) (shift : ℝ) : Py ℝ := do
  let pv ← spreadValue rnd exp origin dates data flows none
  let sh ← spreadValue rnd exp origin dates data flows (some ([origin], [shift]))
  basisPoint rnd pv sh shift

end

end Rounded

end Dcf
