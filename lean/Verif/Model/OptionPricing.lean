import Verif.Model.Curve

/-! # Option pricing models: `dcf/models/*.py` -/

set_option linter.unusedVariables false

namespace Dcf

/-! ## Normal distribution -/

/-- Density and distribution function used by the pricing formulas.  The package uses `codeDist`; the formulas
take them as a parameter so that statements about the formulas themselves can use the exact functions. -/
structure NormalDist where
  pdf : ℝ → ℝ
  cdf : ℝ → ℝ

/-- `normal_pdf`, `dcf/models/distibutions.py` lines 16-24. -/
noncomputable def normalPdf (x : ℝ) : ℝ := 0.398942280401433 * Real.exp (-0.5 * x * x)

/-- The polynomial in `normal_cdf`, `dcf/models/distibutions.py` lines 37-41 and 49-53. -/
noncomputable def cdfPoly (result : ℝ) : ℝ :=
  result * (0.31938153 + result * (-0.356563782 + result * (1.781477937 + result * (-1.821255978 + result * 1.330274429))))

/-- `normal_cdf`, `dcf/models/distibutions.py` lines 27-55.  Both denominators are positive on their branch. -/
noncomputable def normalCdf (x : ℝ) : ℝ :=
  if 0 ≤ x then 1 - 0.398942280401433 * Real.exp (-0.5 * x * x) * cdfPoly (1 / (1 + 0.2316419 * x))
  else 0.398942280401433 * Real.exp (-0.5 * x * x) * cdfPoly (1 / (1 - 0.2316419 * x))

noncomputable def codeDist : NormalDist := ⟨normalPdf, normalCdf⟩

/-! ## Pricing formulas -/

/-- The overridable methods of an option pricing formula, arguments `time, strike, forward, volatility`,
`dcf/models/optionpricing.py` lines 76-92.  A greek that is not implemented returns `None`.  The first argument is
`Py ℝ` because some callers pass a date in place of the time (lines 340, 387, 425): using something that is not a
number raises, passing it on does not. -/
structure OptFormula where
  price : Py ℝ → ℝ → ℝ → ℝ → Py ℝ
  delta : Py ℝ → ℝ → ℝ → ℝ → Py (Option ℝ)
  gamma : Py ℝ → ℝ → ℝ → ℝ → Py (Option ℝ)
  vega : Py ℝ → ℝ → ℝ → ℝ → Py (Option ℝ)
  theta : Py ℝ → ℝ → ℝ → ℝ → Py (Option ℝ)

/-- An unimplemented greek, `dcf/models/optionpricing.py` lines 82-92. -/
def noGreek : Py ℝ → ℝ → ℝ → ℝ → Py (Option ℝ) := fun _ _ _ _ => .ok none

/-- `OptionPayOffModel` itself: `__call__` and `_call_price` call each other forever,
`dcf/models/optionpricing.py` lines 76-80. -/
def baseFormula : OptFormula where
  price _ _ _ _ := .error .recursion
  delta := noGreek
  gamma := noGreek
  vega := noGreek
  theta := noGreek

/-- `IntrinsicOptionPayOffModel`, `dcf/models/intrinsic.py` lines 39-49. -/
noncomputable def intrinsicFormula : OptFormula where
  price _ strike forward _ := .ok (max (forward - strike) 0)
  delta _ strike forward _ := .ok (some (if forward < strike then 0 else 1))
  gamma _ _ _ _ := .ok (some 0)
  vega _ _ _ _ := .ok (some 0)
  theta := noGreek

/-- `BinaryIntrinsicOptionPayOffModel`, `dcf/models/intrinsic.py` lines 72-82. -/
noncomputable def binaryIntrinsicFormula : OptFormula where
  price _ strike forward _ := .ok (if forward ≤ strike then 0 else 1)
  delta _ _ _ _ := .ok (some 0)
  gamma _ _ _ _ := .ok (some 0)
  vega _ _ _ _ := .ok (some 0)
  theta := noGreek

/-- `vol = volatility * sqrt(time)` -/
noncomputable def volOfTime (time : Py ℝ) (volatility : ℝ) : Py ℝ := do
  let s ← pySqrt (← time)
  .ok (volatility * s)

/-- `vol` and `d` of the Bachelier formulas, `dcf/models/bachelier.py` lines 50-51. -/
noncomputable def normalD (time : Py ℝ) (strike forward volatility : ℝ) : Py (ℝ × ℝ) := do
  let vol ← volOfTime time volatility
  let d ← pyDiv (forward - strike) vol
  .ok (vol, d)

/-- `NormalOptionPayOffModel`, `dcf/models/bachelier.py` lines 49-67. -/
noncomputable def normalFormula (N : NormalDist) : OptFormula where
  price time strike forward volatility := do
    let (vol, d) ← normalD time strike forward volatility
    .ok ((forward - strike) * N.cdf d + vol * N.pdf d)
  delta time strike forward volatility := do
    let (_, d) ← normalD time strike forward volatility
    .ok (some (N.cdf d))
  gamma time strike forward volatility := do
    let (vol, d) ← normalD time strike forward volatility
    .ok (some (← pyDiv (N.pdf d) vol))
  vega time strike forward volatility := do
    let (_, d) ← normalD time strike forward volatility
    .ok (some ((← pySqrt (← time)) * N.pdf d))
  theta := noGreek

/-- `BinaryNormalOptionPayOffModel`, `dcf/models/bachelier.py` lines 97-115. -/
noncomputable def binaryNormalFormula (N : NormalDist) : OptFormula where
  price time strike forward volatility := do
    let (_, d) ← normalD time strike forward volatility
    .ok (N.cdf d)
  delta time strike forward volatility := do
    let (vol, d) ← normalD time strike forward volatility
    .ok (some (← pyDiv (N.pdf d) vol))
  gamma time strike forward volatility := do
    let (vol, d) ← normalD time strike forward volatility
    .ok (some (← pyDiv (d * N.pdf d) (vol * vol * (← time))))
  vega time strike forward volatility := do
    let (_, d) ← normalD time strike forward volatility
    .ok (some ((← pySqrt (← time)) * N.pdf d))
  theta := noGreek

/-- `vol` and `d` of the Black formulas, `dcf/models/black76.py` lines 54-55. -/
noncomputable def logNormalD (time : Py ℝ) (strike forward volatility : ℝ) : Py (ℝ × ℝ) := do
  let vol ← volOfTime time volatility
  let l ← pyLog (← pyDiv forward strike)
  let d ← pyDiv (l + vol ^ 2 / 2) vol
  .ok (vol, d)

/-- `LogNormalOptionPayOffModel`, `dcf/models/black76.py` lines 53-71. -/
noncomputable def logNormalFormula (N : NormalDist) : OptFormula where
  price time strike forward volatility := do
    let (vol, d) ← logNormalD time strike forward volatility
    .ok (forward * N.cdf d - strike * N.cdf (d - vol))
  delta time strike forward volatility := do
    let (_, d) ← logNormalD time strike forward volatility
    .ok (some (N.cdf d))
  gamma := noGreek
  vega time strike forward volatility := do
    let (vol, d) ← logNormalD time strike forward volatility
    .ok (some (forward * (← pySqrt (← time)) * N.pdf (d - vol)))
  theta := noGreek

/-- `BinaryLogNormalOptionPayOffModel`, `dcf/models/black76.py` lines 103-121. -/
noncomputable def binaryLogNormalFormula (N : NormalDist) : OptFormula where
  price time strike forward volatility := do
    let (_, d) ← logNormalD time strike forward volatility
    .ok (N.cdf d)
  delta time strike forward volatility := do
    let (vol, d) ← logNormalD time strike forward volatility
    .ok (some (← pyDiv (N.pdf (d - vol)) (vol * forward)))
  gamma := noGreek
  vega time strike forward volatility := do
    let (vol, d) ← logNormalD time strike forward volatility
    .ok (some (← pyDiv ((d - vol) * N.pdf d) volatility))
  theta := noGreek

/-- `DisplacedLogNormalOptionPayOffModel`, `dcf/models/displaced.py` lines 65-87. -/
noncomputable def displacedFormula (N : NormalDist) (displacement : ℝ) : OptFormula where
  price time strike forward volatility :=
    (logNormalFormula N).price time (strike + displacement) (forward + displacement) volatility
  delta time strike forward volatility :=
    (logNormalFormula N).delta time (strike + displacement) (forward + displacement) volatility
  gamma time strike forward volatility :=
    (logNormalFormula N).gamma time (strike + displacement) (forward + displacement) volatility
  vega time strike forward volatility :=
    (logNormalFormula N).vega time (strike + displacement) (forward + displacement) volatility
  theta := noGreek

/-- `BinaryDisplacedLogNormalOptionPayOffModel`, `dcf/models/displaced.py` lines 90-115: only the price is displaced. -/
noncomputable def binaryDisplacedFormula (N : NormalDist) (displacement : ℝ) : OptFormula where
  price time strike forward volatility :=
    (binaryLogNormalFormula N).price time (strike + displacement) (forward + displacement) volatility
  delta := (binaryLogNormalFormula N).delta
  gamma := (binaryLogNormalFormula N).gamma
  vega := (binaryLogNormalFormula N).vega
  theta := noGreek

/-- `BinaryOptionPayOffModel`, `dcf/models/optionpricing.py` lines 446-495: a call spread of the inner formula.  The
constructor argument `strike_shift` is never used. -/
noncomputable def binaryFormula (inner : OptFormula) (strike_shift : Option ℝ) : OptFormula where
  price time strike forward volatility := do
    let shift : ℝ := 0.0001
    let lo ← inner.price time (strike - shift / 2) forward volatility
    let hi ← inner.price time (strike + shift / 2) forward volatility
    pyDiv (lo - hi) shift
  delta := noGreek
  gamma := noGreek
  vega := noGreek
  theta := noGreek

/-! ## Models -/

/-- What can be given as a forward curve: nothing, a number, an object with `get_forward_price` (and how it answers a
plain call), an object with `get_cash_rate`, any other callable.  Curves have a day count.  All but `None` and the
number 0 are true in a boolean context. -/
inductive Fwd (D : Type)
  | none
  | num (x : ℝ)
  | price (forward call : D → Py ℝ) (dayCount : D → D → Py ℝ)
  | cash (rate : D → Py ℝ) (dayCount : D → D → Py ℝ)
  | fn (f : D → Py ℝ)

/-- What can be given as a volatility curve: nothing, a number, an object with `get_terminal_vol`, any other callable
(with or without a day count). -/
inductive Vol (D : Type)
  | none
  | num (x : ℝ)
  | terminal (vol : D → Py ℝ) (dayCount : D → D → Py ℝ)
  | fn (f : D → Py ℝ) (dayCount : Option (D → D → Py ℝ))

/-- `if forward_curve` -/
noncomputable def Fwd.truthy {D : Type} : Fwd D → Bool
  | .none => false
  | .num x => x ≠ 0
  | _ => true

/-- `hasattr(forward_curve, 'day_count')` -/
def Fwd.dayCount {D : Type} : Fwd D → Option (D → D → Py ℝ)
  | .price _ _ d => some d
  | .cash _ d => some d
  | _ => .none

/-- Line 204-218 of `dcf/models/optionpricing.py`: the entry `'forward'` of the details, absent for a false forward
curve. -/
noncomputable def Fwd.optionForward {D : Type} (f : Fwd D) (date : D) : Py (Option ℝ) :=
  if f.truthy then
    match f with
    | .price fwd _ _ => some <$> fwd date
    | .cash r _ => some <$> r date
    | .num x => .ok (some x)
    | .fn g => some <$> g date
    | .none => .ok .none
  else .ok .none

/-- Lines 224-232 of `dcf/models/optionpricing.py`: the entry `'volatility'` of the details, absent for a false
volatility curve. -/
noncomputable def Vol.eval {D : Type} (v : Vol D) (date : D) : Py (Option ℝ) :=
  match v with
  | .none => .ok .none
  | .num x => .ok (if x = 0 then .none else some x)
  | .terminal f _ => some <$> f date
  | .fn f _ => some <$> f date

/-- `hasattr(volatility_curve, 'day_count')` -/
def Vol.dayCount {D : Type} : Vol D → Option (D → D → Py ℝ)
  | .terminal _ d => some d
  | .fn _ d => d
  | _ => .none

/-- An `OptionPayOffModel`, `dcf/models/optionpricing.py` lines 141-164, with the formula of its class. -/
structure OptModel (D : Type) where
  valuation : Option D
  forward : Fwd D
  vol : Vol D
  dayCount : Option (D → D → ℝ)
  bump : Bool
  formula : OptFormula

/-- Result of `OptionPayOffModel.details`; absent keys are `none`. -/
structure OptDetails (D : Type) where
  valuation : Option D
  fixing : Option D
  forward : Option ℝ
  strike : ℝ
  volatility : Option ℝ
  time : ℝ

section
variable {D P : Type} (cal : Cal D P)

/-- Lines 234-242 of `dcf/models/optionpricing.py`.  A day count of `None` is a `TypeError`. -/
def OptModel.time (m : OptModel D) (date : D) : Py ℝ :=
  match m.valuation with
  | none => .error .type
  | some v =>
    match m.dayCount with
    | some dc => .ok (dc v date)
    | none =>
      match m.vol.dayCount with
      | some dc => dc v date
      | none =>
        match m.forward.dayCount with
        | some dc => dc v date
        | none => .ok (cal.dayCount v date)

/-- `OptionPayOffModel.details`, `dcf/models/optionpricing.py` lines 193-245. -/
noncomputable def OptModel.details (m : OptModel D) (date : D) (strike : Option ℝ) : Py (OptDetails D) := do
  let forward ← m.forward.optionForward date
  let vol ← m.vol.eval date
  let time ← m.time cal date
  .ok { valuation := m.valuation
        fixing := if m.forward.truthy then some date else none
        forward := forward
        strike := match strike with
          | some k => k
          | none => forward.getD 0
        volatility := vol
        time := time }

/-- `not vol or not time` -/
noncomputable def OptDetails.flat (d : OptDetails D) : Bool := d.volatility.getD 0 = 0 ∨ d.time = 0

/-- A missing forward is `None`; any arithmetic or comparison with it is a `TypeError`.  Simplification: it is raised at
once.  (For a negative time some formulas would raise `ValueError` earlier, the base class calls itself forever, and the
greeks of the intrinsic models and of users that do not look at the forward return their value.) -/
def OptDetails.fwd (d : OptDetails D) : Py ℝ :=
  match d.forward with
  | some f => .ok f
  | none => .error .type

/-- `get_call_value`, `dcf/models/optionpricing.py` lines 247-258. -/
noncomputable def OptModel.callValue (m : OptModel D) (date : D) (strike : Option ℝ) : Py ℝ := do
  let d ← m.details cal date strike
  let fwd ← d.fwd
  if d.flat then .ok (max (fwd - d.strike) 0)
  else m.formula.price (.ok d.time) d.strike fwd (d.volatility.getD 0)

/-- `get_put_value`, `dcf/models/optionpricing.py` lines 260-275. -/
noncomputable def OptModel.putValue (m : OptModel D) (date : D) (strike : Option ℝ) : Py ℝ := do
  let d ← m.details cal date strike
  let fwd ← d.fwd
  if d.flat then .ok (max (d.strike - fwd) 0)
  else do
    let call ← m.formula.price (.ok d.time) d.strike fwd (d.volatility.getD 0)
    .ok (d.strike - fwd + call)

/-- `get_call_delta`, `dcf/models/optionpricing.py` lines 277-300. -/
noncomputable def OptModel.callDelta (m : OptModel D) (date : D) (strike : Option ℝ) : Py ℝ := do
  let scale : ℝ := 0.0001
  let shift : ℝ := 0.0001
  let d ← m.details cal date strike
  let fwd ← d.fwd
  if d.flat then .ok (if fwd < d.strike then 0 else 1 * scale)
  else
    let t : Py ℝ := .ok d.time
    let vol := d.volatility.getD 0
    let bumped : Py ℝ := do
      let up ← m.formula.price t d.strike (fwd + shift) vol
      let base ← m.formula.price t d.strike fwd vol
      let q ← pyDiv (up - base) shift
      .ok (q * scale)
    if m.bump then bumped
    else do
      match ← m.formula.delta t d.strike fwd vol with
      | some delta => .ok (delta * scale)
      | none => bumped

/-- `get_put_delta`, `dcf/models/optionpricing.py` lines 302-321. -/
noncomputable def OptModel.putDelta (m : OptModel D) (date : D) (strike : Option ℝ) : Py ℝ := do
  let scale : ℝ := 0.0001
  let delta ← m.callDelta cal date strike
  .ok (delta - 1 * scale)

/-- How a date acts where a number is expected: `num d` is the number for a float date and a `TypeError` else. -/
abbrev AsNumber (D : Type) := D → Py ℝ

/-- `get_call_gamma`, `dcf/models/optionpricing.py` lines 323-347.  The analytic formula gets the date as time. -/
noncomputable def OptModel.callGamma (num : AsNumber D) (m : OptModel D) (date : D) (strike : Option ℝ) : Py ℝ := do
  let scale : ℝ := 0.0001
  let shift : ℝ := 0.0001
  let d ← m.details cal date strike
  if d.flat then .ok 0
  else do
    let fwd ← d.fwd
    let t : Py ℝ := .ok d.time
    let vol := d.volatility.getD 0
    let bumped : Py ℝ := do
      let up ← m.formula.price t d.strike (fwd + shift) vol
      let base ← m.formula.price t d.strike fwd vol
      let down ← m.formula.price t d.strike (fwd - shift) vol
      let q ← pyDiv scale shift
      .ok ((up - 2 * base + down) * q ^ 2)
    if m.bump then bumped
    else do
      match ← m.formula.gamma (num date) d.strike fwd vol with
      | some gamma => .ok (gamma * scale ^ 2)
      | none => bumped

/-- `get_put_gamma`, `dcf/models/optionpricing.py` lines 349-364. -/
noncomputable def OptModel.putGamma (num : AsNumber D) (m : OptModel D) (date : D) (strike : Option ℝ) : Py ℝ :=
  m.callGamma cal num date strike

/-- `get_call_vega`, `dcf/models/optionpricing.py` lines 366-389.  The bumped formula gets the date as time in its
second price. -/
noncomputable def OptModel.callVega (num : AsNumber D) (m : OptModel D) (date : D) (strike : Option ℝ) : Py ℝ := do
  let shift : ℝ := 0.01
  let scale : ℝ := 0.01
  let d ← m.details cal date strike
  if d.flat then .ok 0
  else do
    let fwd ← d.fwd
    let t : Py ℝ := .ok d.time
    let vol := d.volatility.getD 0
    let bumped : Py ℝ := do
      let up ← m.formula.price t d.strike fwd (vol + shift)
      let base ← m.formula.price (num date) d.strike fwd vol
      let q ← pyDiv scale shift
      .ok ((up - base) * q)
    if m.bump then bumped
    else do
      match ← m.formula.vega t d.strike fwd vol with
      | some vega => .ok (vega * scale)
      | none => bumped

/-- `get_put_vega`, `dcf/models/optionpricing.py` lines 391-406. -/
noncomputable def OptModel.putVega (num : AsNumber D) (m : OptModel D) (date : D) (strike : Option ℝ) : Py ℝ :=
  m.callVega cal num date strike

/-- `get_call_theta`, `dcf/models/optionpricing.py` lines 408-430.  The analytic formula gets the date as time. -/
noncomputable def OptModel.callTheta (num : AsNumber D) (m : OptModel D) (date : D) (strike : Option ℝ) : Py ℝ := do
  let shift : ℝ := 1 / 365.25
  let scale : ℝ := 1 / 365.25
  let d ← m.details cal date strike
  if d.flat then .ok 0
  else do
    let fwd ← d.fwd
    let vol := d.volatility.getD 0
    let bumped : Py ℝ := do
      let up ← m.formula.price (.ok (d.time + shift)) d.strike fwd vol
      let base ← m.formula.price (.ok d.time) d.strike fwd vol
      .ok ((up - base) * scale)
    if m.bump then bumped
    else do
      match ← m.formula.theta (num date) d.strike fwd vol with
      | some theta => .ok (theta * scale)
      | none => bumped

/-- `get_put_theta`, `dcf/models/optionpricing.py` lines 432-443. -/
noncomputable def OptModel.putTheta (num : AsNumber D) (m : OptModel D) (date : D) (strike : Option ℝ) : Py ℝ :=
  m.callTheta cal num date strike

/-- `BinaryOptionPayOffModel.__init__`, `dcf/models/optionpricing.py` lines 450-486, on top of another model: missing
(or false) arguments are taken from that model. -/
noncomputable def OptModel.binary (inner : OptModel D) (strike_shift : Option ℝ) (valuation : Option D) (forward : Fwd D)
    (vol : Vol D) (dayCount : Option (D → D → ℝ)) : OptModel D where
  valuation := cal.or valuation inner.valuation
  forward := if forward.truthy then forward else inner.forward
  vol := match vol with
    | .none => inner.vol
    | .num x => if x = 0 then inner.vol else .num x
    | v => v
  dayCount := dayCount.or inner.dayCount
  bump := true
  formula := binaryFormula inner.formula strike_shift

end

end Dcf
