import Verif.Model.RoundedLegs
import Verif.Model.CreditCurve

/-!
# Volatilities, fx rates, credit data and forward rates in floating point arithmetic

As in `Verif.Model.Rounded` with a rounding after every operation, in the order of the operations of the code.  Squares and `sqrt` are the nearest floats to
the exact results.
-/

namespace Dcf

namespace Rounded

section
variable (rnd : ℝ → ℝ)

/-- `TerminalVolatilityCurve.get_terminal_vol` for `origin != start < stop`, `dcf/curves/volatilitycurve.py` lines 110-126: year fraction from the origin and
volatility of the start, of the end, and the year fraction between. -/
noncomputable def forwardVol (floor : Option ℝ) (t1 v1 t2 v2 t : ℝ) : Py ℝ := do
  let var_start := rnd (t1 * rnd (v1 ^ 2))
  let var_end := rnd (t2 * rnd (v2 ^ 2))
  let var ← div rnd (rnd (var_end - var_start)) t
  if var < 0 ∧ floor = none then .error .zeroDivision
  else
    let var := match floor with
      | some f => max var (rnd (f ^ 2))
      | none => var
    .ok (rnd (Real.sqrt var))

/-- `(e - s) / t`, `dcf/curves/interestratecurve.py` lines 347-350 and `dcf/curves/creditcurve.py` lines 236-239. -/
noncomputable def forwardRate (z1 t1 z2 t2 t : ℝ) : Py ℝ := div rnd (rnd (rnd (z2 * t2) - rnd (z1 * t1))) t

/-- The rate of the currency `f` in the currency `d` added before, `dcf/curves/fx.py` lines 167 and 175: `spot_d` and `spot_f` are the spots of the calls of
`add`. -/
noncomputable def cross (spot_d spot_f : ℝ) : Py ℝ := do
  let q ← div rnd 1 spot_d
  .ok (rnd (q * spot_f))

/-- The rate the other way round, `dcf/curves/fx.py` line 187. -/
noncomputable def crossBack (spot_d spot_f : ℝ) : Py ℝ := do
  let x ← cross rnd spot_d spot_f
  div rnd 1 x

/-- `y / f * d`, `dcf/curves/fx.py` line 38. -/
noncomputable def fxForward (y f d : ℝ) : Py ℝ := do
  let q ← div rnd y f
  .ok (rnd (q * d))

/-- `max(float_info.min, min(d, 1. - float_info.min))`, `dcf/curves/creditcurve.py` lines 145-146. -/
noncomputable def survivalData (d : ℝ) : ℝ := max floatMin (min d (rnd (1 - floatMin)))

/-- The data of a default probability curve, `dcf/curves/creditcurve.py` lines 209, 338 and 145-146. -/
noncomputable def defaultData (d : ℝ) : ℝ := survivalData rnd (rnd (1 - d))

/-- `SurvivalProbabilityCurve._get_compounding_factor` for `start != stop`, `dcf/curves/creditcurve.py` line 182. -/
noncomputable def conditional (s_start s_stop : ℝ) : Py ℝ := div rnd s_stop s_start

end

end Rounded

end Dcf
