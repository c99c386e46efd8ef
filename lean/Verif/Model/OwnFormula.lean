import Verif.Model.OptionPricing

/-!
# Option pricing formulas written by the user: `dcf/models/optionpricing.py` lines 17-92

A subclass of `OptionPayOffModel` overrides some of the methods `__call__`, `_call_price`, `_call_delta`, ...; the others are those of
`OptionPricingFormula`.  Simplification: the user's methods are functions of their arguments (they do not call `self` again).
-/

namespace Dcf

/-- `time, strike, forward, volatility ↦ price` -/
abbrev PriceFn := Py ℝ → ℝ → ℝ → ℝ → Py ℝ

/-- `time, strike, forward, volatility ↦ greek or None` -/
abbrev GreekFn := Py ℝ → ℝ → ℝ → ℝ → Py (Option ℝ)

/-- The methods a subclass defines. -/
structure FormulaClass where
  call : Option PriceFn
  price : Option PriceFn
  delta : Option GreekFn
  gamma : Option GreekFn
  vega : Option GreekFn
  theta : Option GreekFn

mutual

/-- `formula(time, strike, forward, volatility)`, lines 76-77; `limit` is the recursion limit. -/
def FormulaClass.callAt (k : FormulaClass) : ℕ → PriceFn
  | 0 => fun _ _ _ _ => .error .recursion
  | limit + 1 => match k.call with
    | some f => f
    | none => fun t K F v => k.priceAt limit t K F v

/-- `formula._call_price(time, strike, forward, volatility)`, lines 79-80. -/
def FormulaClass.priceAt (k : FormulaClass) : ℕ → PriceFn
  | 0 => fun _ _ _ _ => .error .recursion
  | limit + 1 => match k.price with
    | some f => f
    | none => fun t K F v => k.callAt limit t K F v

end

/-- The methods as the model of the class sees them, lines 79-92. -/
def FormulaClass.formula (k : FormulaClass) (limit : ℕ) : OptFormula where
  price := k.priceAt limit
  delta := k.delta.getD noGreek
  gamma := k.gamma.getD noGreek
  vega := k.vega.getD noGreek
  theta := k.theta.getD noGreek

/-- The second argument of `type(name, bases, dict)`. -/
inductive Bases
  | cls
  | tuple

/-- `type(name, bases, dict)` (python): the bases must be a tuple. -/
def pyType (k : FormulaClass) : Bases → Py FormulaClass
  | .cls => .error .type
  | .tuple => .ok k

/-- `OptionPricingFormula.from_function(func, name)`, lines 63-74; `named`: the callable has a `__name__`. -/
def FormulaClass.fromFunction (func : PriceFn) (named : Bool) (name : Option String) : Py FormulaClass := do
  let _ ← match name with
    | some n => (.ok n : Py String)
    | none => if named then .ok "" else .error .attribute
  pyType ⟨some func, none, none, none, none, none⟩ .cls

end Dcf
