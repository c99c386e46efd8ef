import Verif.Model.Rounded

/-!
# Option values and bumped sensitivities in floating point arithmetic

As in `Verif.Model.Rounded` with a rounding after every operation.  The arguments are those found in `details`: year fraction, strike, forward and volatility;
`price` is the pricing formula, itself a floating point program.
-/

namespace Dcf

namespace Rounded

section
variable (rnd : ℝ → ℝ)

/-- `get_call_value`, `dcf/models/optionpricing.py` lines 256-258. -/
noncomputable def callValue (price : ℝ → ℝ → ℝ → ℝ → Py ℝ) (time strike fwd vol : ℝ) : Py ℝ :=
  if vol = 0 ∨ time = 0 then .ok (max (rnd (fwd - strike)) 0) else price time strike fwd vol

/-- `get_put_value`, `dcf/models/optionpricing.py` lines 271-275. -/
noncomputable def putValue (price : ℝ → ℝ → ℝ → ℝ → Py ℝ) (time strike fwd vol : ℝ) : Py ℝ :=
  if vol = 0 ∨ time = 0 then .ok (max (rnd (strike - fwd)) 0)
  else do
    let call ← price time strike fwd vol
    .ok (rnd (rnd (strike - fwd) + call))

/-- The literal `0.0001`, the float nearest to 1/10000: `DELTA_SHIFT`, `DELTA_SCALE` and `STRIKE_SHIFT`, `dcf/models/optionpricing.py` lines 98, 101, 447. -/
noncomputable def shift : ℝ := rnd (1 / 10000)

/-- `get_call_delta` with `bump_greeks`, `dcf/models/optionpricing.py` lines 288-300. -/
noncomputable def callDelta (price : ℝ → ℝ → ℝ → ℝ → Py ℝ) (time strike fwd vol : ℝ) : Py ℝ :=
  if vol = 0 ∨ time = 0 then .ok (if fwd < strike then 0 else rnd (1 * shift rnd))
  else do
    let up ← price time strike (rnd (fwd + shift rnd)) vol
    let base ← price time strike fwd vol
    let delta ← div rnd (rnd (up - base)) (shift rnd)
    .ok (rnd (delta * shift rnd))

/-- `get_call_gamma` with `bump_greeks`, `dcf/models/optionpricing.py` lines 334-347. -/
noncomputable def callGamma (price : ℝ → ℝ → ℝ → ℝ → Py ℝ) (time strike fwd vol : ℝ) : Py ℝ :=
  if vol = 0 ∨ time = 0 then .ok 0
  else do
    let up ← price time strike (rnd (fwd + shift rnd)) vol
    let base ← price time strike fwd vol
    let down ← price time strike (rnd (fwd - shift rnd)) vol
    let q ← div rnd (shift rnd) (shift rnd)
    .ok (rnd (rnd (rnd (up - rnd (2 * base)) + down) * rnd (q ^ 2)))

/-- `BinaryOptionPayOffModel._call_price`, `dcf/models/optionpricing.py` lines 488-495. -/
noncomputable def binaryPrice (inner : ℝ → ℝ → ℝ → ℝ → Py ℝ) (time strike forward volatility : ℝ) : Py ℝ := do
  let high_strike := rnd (strike + rnd (shift rnd / 2))
  let low_strike := rnd (strike - rnd (shift rnd / 2))
  let low ← inner time low_strike forward volatility
  let high ← inner time high_strike forward volatility
  div rnd (rnd (low - high)) (shift rnd)

/-- `IntrinsicOptionPayOffModel._call_price`, `dcf/models/intrinsic.py` line 40. -/
noncomputable def intrinsicPrice (_time strike forward _volatility : ℝ) : Py ℝ := .ok (max (rnd (forward - strike)) 0)

end

end Rounded

end Dcf
