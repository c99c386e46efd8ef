import Mathlib.Analysis.SpecialFunctions.Gaussian.GaussianIntegral
import Mathlib.Analysis.Calculus.Deriv.Basic
import Verif.Model.OptionPricing

/-! # Specification vocabulary for option models: the normal distribution, sensitivities -/

namespace Dcf.Spec

open Filter Topology MeasureTheory

/-- Density of the standard normal distribution. -/
noncomputable def gaussPdf (x : ℝ) : ℝ := (Real.sqrt (2 * Real.pi))⁻¹ * Real.exp (-x ^ 2 / 2)

/-- Distribution function of the standard normal distribution. -/
noncomputable def gaussCdf (x : ℝ) : ℝ := ∫ t in Set.Iic x, gaussPdf t

/-- The standard normal distribution itself, in place of the approximation used by the code. -/
noncomputable def exactDist : NormalDist := ⟨gaussPdf, gaussCdf⟩

/-- Near `x` the prices are numbers, the greek is a number, and it is the derivative of the prices at `x`. -/
def IsDerivative (price : ℝ → Py ℝ) (greek : Py (Option ℝ)) (x : ℝ) : Prop :=
  ∃ (f : ℝ → ℝ) (g : ℝ), (∀ᶠ y in 𝓝 x, price y = .ok (f y)) ∧ greek = .ok (some g) ∧ HasDerivAt f g x

/-- The same for the second derivative. -/
def IsSecondDerivative (price : ℝ → Py ℝ) (greek : Py (Option ℝ)) (x : ℝ) : Prop :=
  ∃ (f f' : ℝ → ℝ) (g : ℝ), (∀ᶠ y in 𝓝 x, price y = .ok (f y) ∧ HasDerivAt f (f' y) y) ∧
    greek = .ok (some g) ∧ HasDerivAt f' g x

/-- `(F - K) / (σ √τ)`, the number `d` in the documentation of the normal models. -/
noncomputable def docD (time strike forward vol : ℝ) : ℝ := (forward - strike) / (vol * Real.sqrt time)

/-- `(log(F/K) + σ² τ / 2) / (σ √τ)`, the number `d` in the documentation of the log-normal models. -/
noncomputable def docLogD (time strike forward vol : ℝ) : ℝ :=
  (Real.log (forward / strike) + vol ^ 2 * time / 2) / (vol * Real.sqrt time)

end Dcf.Spec
