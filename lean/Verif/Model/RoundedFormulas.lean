import Verif.Model.Rounded
import Verif.Model.OptionPricing

/-!
# The normal distribution and the closed option formulas in floating point arithmetic

As in `Verif.Model.Rounded` with a rounding after every operation, decimal literals being rounded as well; `exp` and `log` are those of the C library, `sqrt` rounds
correctly (IEEE 754).  The year fraction is a number: `time` has been found.
-/

namespace Dcf

namespace Rounded

section
variable (rnd : ℝ → ℝ)

/-- `normal_pdf`, `dcf/models/distibutions.py` lines 19-24; the literal is `ONE_OVER_SQRT_OF_TWO_PI`, line 16. -/
noncomputable def normalPdf (exp : ℝ → ℝ) (x : ℝ) : ℝ := rnd (rnd 0.398942280401433 * exp (rnd (rnd (-0.5 * x) * x)))

/-- The nested polynomial of `normal_cdf`, `dcf/models/distibutions.py` lines 37-41 and 48-52. -/
noncomputable def cdfPoly (result : ℝ) : ℝ :=
  rnd (result * rnd (rnd 0.31938153 + rnd (result * rnd (rnd (-0.356563782) + rnd (result * rnd (rnd 1.781477937 +
    rnd (result * rnd (rnd (-1.821255978) + rnd (result * rnd 1.330274429)))))))))

/-- `normal_cdf`, `dcf/models/distibutions.py` lines 27-55.  Both denominators are positive on their branch. -/
noncomputable def normalCdf (exp : ℝ → ℝ) (x : ℝ) : ℝ :=
  if 0 ≤ x then rnd (1 - rnd (rnd (rnd 0.398942280401433 * exp (rnd (rnd (-0.5 * x) * x))) * cdfPoly rnd (rnd (1 / rnd (1 + rnd (rnd 0.2316419 * x))))))
  else rnd (rnd (rnd 0.398942280401433 * exp (rnd (rnd (-0.5 * x) * x))) * cdfPoly rnd (rnd (1 / rnd (1 - rnd (rnd 0.2316419 * x)))))

/-- `vol = volatility * sqrt(time)` -/
noncomputable def volOfTime (time volatility : ℝ) : Py ℝ := do
  let s ← pySqrt time
  .ok (rnd (volatility * rnd s))

/-- `vol` and `d` of the Bachelier formulas, `dcf/models/bachelier.py` lines 50-51. -/
noncomputable def normalD (time strike forward volatility : ℝ) : Py (ℝ × ℝ) := do
  let vol ← volOfTime rnd time volatility
  let d ← div rnd (rnd (forward - strike)) vol
  .ok (vol, d)

/-- `NormalOptionPayOffModel._call_price`, `dcf/models/bachelier.py` lines 49-52. -/
noncomputable def normalPrice (exp : ℝ → ℝ) (time strike forward volatility : ℝ) : Py ℝ := do
  let (vol, d) ← normalD rnd time strike forward volatility
  .ok (rnd (rnd (rnd (forward - strike) * normalCdf rnd exp d) + rnd (vol * normalPdf rnd exp d)))

/-- `BinaryNormalOptionPayOffModel._call_price` and `NormalOptionPayOffModel._call_delta`, `dcf/models/bachelier.py` lines 97-100 and 54-57. -/
noncomputable def normalBinary (exp : ℝ → ℝ) (time strike forward volatility : ℝ) : Py ℝ := do
  let (_, d) ← normalD rnd time strike forward volatility
  .ok (normalCdf rnd exp d)

/-- `vol` and `d` of the Black formulas, `dcf/models/black76.py` lines 54-55. -/
noncomputable def logNormalD (log : ℝ → ℝ) (time strike forward volatility : ℝ) : Py (ℝ × ℝ) := do
  let vol ← volOfTime rnd time volatility
  let q ← div rnd forward strike
  let l ← if 0 < q then .ok (log q) else .error .value
  let d ← div rnd (rnd (l + rnd (rnd (vol ^ 2) / 2))) vol
  .ok (vol, d)

/-- `LogNormalOptionPayOffModel._call_price`, `dcf/models/black76.py` lines 53-56. -/
noncomputable def logNormalPrice (exp log : ℝ → ℝ) (time strike forward volatility : ℝ) : Py ℝ := do
  let (vol, d) ← logNormalD rnd log time strike forward volatility
  .ok (rnd (rnd (forward * normalCdf rnd exp d) - rnd (strike * normalCdf rnd exp (rnd (d - vol)))))

/-- `BinaryLogNormalOptionPayOffModel._call_price` and `LogNormalOptionPayOffModel._call_delta`, `dcf/models/black76.py` lines 103-106 and 58-61. -/
noncomputable def logNormalBinary (exp log : ℝ → ℝ) (time strike forward volatility : ℝ) : Py ℝ := do
  let (_, d) ← logNormalD rnd log time strike forward volatility
  .ok (normalCdf rnd exp d)

/-- `DisplacedLogNormalOptionPayOffModel._call_price`, `dcf/models/displaced.py` lines 65-68. -/
noncomputable def displacedPrice (exp log : ℝ → ℝ) (displacement time strike forward volatility : ℝ) : Py ℝ :=
  logNormalPrice rnd exp log time (rnd (strike + displacement)) (rnd (forward + displacement)) volatility

end

end Rounded

end Dcf
