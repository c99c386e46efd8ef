import Verif.Model.RateCurve
import Verif.Model.Compounding

/-!
# Model of `dcf/curves/creditcurve.py`

Simplifications as for interest rate curves.  `float_info.min` is `2 ^ (-1022)`; the python expression
`1. - float_info.min` is the float `1.0`, so it is modelled as `1` (an exact difference would be
wrong here).
-/

namespace Dcf

/-- The classes `SurvivalProbabilityCurve` 165-191, `DefaultProbabilityCurve` 194-212,
`FlatIntensityCurve` 215-239, `HazardRateCurve` 242-270, `MarginalSurvivalProbabilityCurve` 273-319,
`MarginalDefaultProbabilityCurve` 322-340. -/
inductive CRClass
  | survival | default | flat | hazard | marginal | marginalDefault
  deriving DecidableEq, Repr

/-- Class default `_INTERPOLATION`, lines 171, 200, 221, 248, 279, 329. -/
def CRClass.dflt : CRClass → FuncSpec
  | .survival | .default => logLinearRateScheme
  | .flat => linearScheme
  | .hazard => .base .constant
  | .marginal | .marginalDefault => logLinearScheme

/-- Subclasses of `ProbabilityCurve`. -/
def CRClass.isProb : CRClass → Bool
  | .flat | .hazard => false
  | _ => true

/-- `float_info.min` -/
noncomputable def floatMin : ℝ := (1 / 2) ^ 1022

/-- `max(float_info.min, min(d, 1. - float_info.min))`, lines 145-146. -/
noncomputable def clampProb (d : ℝ) : ℝ := max floatMin (min d 1)

structure CRCurve (D P : Type) extends RateCurve D P where
  cls : CRClass

section CR
variable {D P : Type} [LinearOrder D] (cal : Cal D P)

noncomputable def CRCurve.call (c : CRCurve D P) (x : D) : Py ℝ := c.toRateCurve.call cal x

def CRCurve.dayCount (c : CRCurve D P) (start stop : D) : Py ℝ := c.base.dayCount cal start stop

/-- `forward_tenor` with `_FORWARD_TENOR = '1Y'`, line 35. -/
def CRCurve.forwardTenor (c : CRCurve D P) : P := c.tenor.getD cal.oneYear

/-- `RateCurve.__init__` with data lists, `dcf/curves/curve.py` lines 743-746. -/
noncomputable def CRCurve.make (cls : CRClass) (domain : List D) (data : List ℝ) (interp : Option FuncSpec)
    (origin : Option D) (dc : DayCountArg D) (tenor : Option P) : Py (CRCurve D P) := do
  let b ← DateCurve.new cal domain data interp origin dc cls.dflt
  .ok ⟨⟨b, tenor, none⟩, cls⟩

/-- The complement taken by `DefaultProbabilityCurve.__init__`, lines 207-209, and
`MarginalDefaultProbabilityCurve.__init__`, lines 336-338. -/
noncomputable def CRClass.complement (cls : CRClass) (data : List ℝ) : List ℝ :=
  match cls with
  | .default | .marginalDefault => data.map (1 - ·)
  | _ => data

/-- Construction from point lists: lines 41-54, 141-162, 205-212, 334-340. -/
noncomputable def CRCurve.new (cls : CRClass) (domain : List D) (data : List ℝ) (interp : Option FuncSpec)
    (origin : Option D) (dc : DayCountArg D) (tenor : Option P) : Py (CRCurve D P) := do
  let data := cls.complement data
  if cls.isProb then
    let data := data.map clampProb
    if ¬ ∀ y ∈ data, y ≠ 0 then throw .value
    CRCurve.make cal cls domain data interp origin dc tenor
  else CRCurve.make cal cls domain data interp origin dc tenor

/-- `SurvivalProbabilityCurve._get_compounding_factor`, lines 177-182. -/
noncomputable def CRCurve.survivalFactorOf (c : CRCurve D P) (same : Bool) (start stop : D) : Py ℝ := do
  if same then c.call cal stop
  else if start = stop then
    let y ← c.call cal start
    .ok (if 2 * floatMin ≤ y then 1 else 0)
  else
    let e ← c.call cal stop
    let s ← c.call cal start
    pyDiv e s

/-- `MarginalSurvivalProbabilityCurve._get_compounding_factor`, lines 285-303. -/
noncomputable def CRCurve.marginalFactorOf (c : CRCurve D P) (start stop : D) : Py ℝ := do
  if start = stop then
    let y ← c.call cal start
    .ok (if 2 * floatMin ≤ y then 1 else 0)
  else
    let (current, df) ← stepLoop cal (c.forwardTenor cal) stop (fun df current _ => do
      let y ← c.call cal current
      .ok (df * if 2 * floatMin ≤ y then y else 0)) start 1
    let y ← c.call cal current
    if 2 * floatMin ≤ y then
      let next ← cal.add current (c.forwardTenor cal)
      let t ← c.dayCount cal current next
      let r ← continuousRate y t
      let t ← c.dayCount cal current stop
      let x ← continuousCompounding r t
      .ok (df * x)
    else .ok (df * 0)

/-- The end date used for the rate over an empty period, `dcf/curves/curve.py` lines 778-782, for
survival curves after lines 185-189. -/
def CRCurve.rateStop (c : CRCurve D P) (start stop : D) : Py D := do
  let stop ← if (c.cls = .survival ∨ c.cls = .default) ∧ start = stop ∧ c.base.origin = some start
    then minDate (c.base.domain.filter (start < ·)) else .ok stop
  let stop ← if start = stop then cal.add start cal.oneDay else .ok stop
  if start = stop then throw .recursion
  .ok stop

/-- `FlatIntensityCurve._get_compounding_rate`, lines 227-239.  `self.__class__._time_shift` does not
exist. -/
noncomputable def CRCurve.flatRateOf (c : CRCurve D P) (same : Bool) (start stop : D) : Py ℝ := do
  if start = stop ∧ c.base.origin = some start then c.call cal start
  else if same then c.call cal stop
  else if start = stop then throw .attribute
  else
    let zs ← c.call cal start
    let o ← pyDate c.base.origin
    let ts ← c.dayCount cal o start
    let ze ← c.call cal stop
    let te ← c.dayCount cal o stop
    let t ← c.dayCount cal start stop
    pyDiv (ze * te - zs * ts) t

/-- `HazardRateCurve._get_compounding_rate`, lines 254-267. -/
noncomputable def CRCurve.hazardRateOf (c : CRCurve D P) (start stop : D) : Py ℝ := do
  if start = stop then c.call cal start
  else
    let (current, rate) ← stepLoop cal cal.oneDay stop (fun rate current next => do
      let r ← c.call cal current
      let t ← c.dayCount cal current next
      .ok (rate + r * t)) start 0
    let r ← c.call cal current
    let t ← c.dayCount cal current stop
    let d ← c.dayCount cal start stop
    pyDiv (rate + r * t) d

/-- `get_flat_intensity(start, stop)`, lines 85-105, i.e. `_get_compounding_rate` by class. -/
noncomputable def CRCurve.rate (c : CRCurve D P) (same : Bool) (start stop : D) : Py ℝ :=
  match c.cls with
  | .survival | .default => do
    let stop ← c.rateStop cal start stop
    let df ← c.survivalFactorOf cal same start stop
    let t ← c.dayCount cal start stop
    continuousRate df t
  | .flat => c.flatRateOf cal same start stop
  | .hazard => c.hazardRateOf cal start stop
  | .marginal | .marginalDefault => do
    let stop ← c.rateStop cal start stop
    let df ← c.marginalFactorOf cal start stop
    let t ← c.dayCount cal start stop
    continuousRate df t

/-- `get_survival_prob(start, stop)`, lines 56-83, i.e. `_get_compounding_factor` by class; for flat
intensities and hazard rates `dcf/curves/curve.py` lines 770-776. -/
noncomputable def CRCurve.factor (c : CRCurve D P) (same : Bool) (start stop : D) : Py ℝ :=
  match c.cls with
  | .survival | .default => c.survivalFactorOf cal same start stop
  | .marginal | .marginalDefault => c.marginalFactorOf cal start stop
  | .flat | .hazard => do
    if start = stop then .ok 1
    else
      let ir ← c.rate cal same start stop
      let t ← c.dayCount cal start stop
      continuousCompounding ir t

/-- `get_survival_prob(start)`, lines 81-82. -/
noncomputable def CRCurve.survivalProb (c : CRCurve D P) (stop : D) : Py ℝ := do
  let o ← pyDate c.base.origin
  c.factor cal true o stop

/-- `get_flat_intensity(start)`, lines 103-104. -/
noncomputable def CRCurve.flatIntensity (c : CRCurve D P) (stop : D) : Py ℝ := do
  let o ← pyDate c.base.origin
  c.rate cal true o stop

/-- `get_hazard_rate`, lines 107-135, 269-270 and 305-319. -/
noncomputable def CRCurve.hazardRate (c : CRCurve D P) (same : Bool) : ℕ → D → Py ℝ
  | 0, _ => .error .recursion
  | limit + 1, start =>
    match c.cls with
    | .hazard => c.call cal start
    | _ => do
      let lo ← minDate c.base.domain
      if start < lo then c.hazardRate same limit lo
      else
        let hi ← maxDate c.base.domain
        if hi ≤ start then
          if c.cls = .marginal ∨ c.cls = .marginalDefault then
            let d ← cal.add hi cal.oneDay
            c.rate cal same hi d
          else
            let d ← cal.sub hi cal.oneDay
            c.hazardRate same limit d
        else
          let previous ← maxDate (c.base.domain.filter (· ≤ start))
          let follow ← minDate (c.base.domain.filter (start < ·))
          if ¬ (previous ≤ start ∧ start ≤ follow) then throw .assertion
          if ¬ previous < follow then throw .assertion
          c.rate cal same previous follow

/-- `_get_storage_value(curve, x)`, lines 173-175, 202-204, 223-225, 250-252, 281-283, 330-332. -/
noncomputable def CRClass.storage (cls : CRClass) (limit : ℕ) (same : D → Bool) (c : CRCurve D P) (x : D) : Py ℝ :=
  match cls with
  | .survival | .default => c.survivalProb cal x
  | .flat => c.flatIntensity cal x
  | .hazard => c.hazardRate cal (same x) limit x
  | .marginal | .marginalDefault => do
    let e ← cal.add x (c.forwardTenor cal)
    c.factor cal (same x) x e

/-- Casting onto a given grid: `cls(domain, curve)`, `dcf/curves/curve.py` lines 693-746.  The values
are neither complemented nor clamped. -/
noncomputable def CRCurve.castOn (cls : CRClass) (limit : ℕ) (same : D → Bool) (domain : List D) (c : CRCurve D P)
    (interp : Option FuncSpec) (origin : Option D) (dc : DayCountArg D) (tenor : Option P) :
    Py (CRCurve D P) := do
  let data ← pyMap (cls.storage cal limit same c) domain
  CRCurve.make cal cls domain data interp (cal.or origin c.base.origin?) (dc.or c.base.dc.kwarg) tenor

/-- Casting a curve as a whole: `cls(curve)`, lines 43-54 and 148-162. -/
noncomputable def CRCurve.cast (cls : CRClass) (limit : ℕ) (same : D → Bool) (c : CRCurve D P)
    (interp : Option FuncSpec) (origin : Option D) (dc : DayCountArg D) (tenor : Option P) :
    Py (CRCurve D P) :=
  if cls.isProb then do
    let origin := origin.or c.base.origin
    let o ← pyDate origin
    let a ← cal.add o cal.oneDay
    let m ← maxDate c.base.domain
    let b ← cal.add m cal.oneYear
    CRCurve.castOn cal cls limit same (sortedSet (c.base.domain ++ [a, b])) c interp origin dc tenor
  else do
    let m ← maxDate c.base.domain
    let b ← cal.add m cal.oneYear
    CRCurve.castOn cal cls limit same (sortedSet (c.base.domain ++ [b])) c interp origin dc tenor

end CR

end Dcf
