import Mathlib.Analysis.SpecialFunctions.ExpDeriv
import Mathlib.Analysis.SpecialFunctions.Log.Deriv
import Mathlib.Analysis.SpecialFunctions.Sqrt
import Mathlib.MeasureTheory.Integral.IntervalIntegral.FundThmCalculus
import Verif.Lemmas.Py
import Verif.Spec.Greeks

/-! # The normal distribution and the option formulas -/

set_option linter.unusedSectionVars false
set_option linter.unusedSimpArgs false
set_option linter.unusedVariables false

namespace Dcf

open Spec Filter Topology MeasureTheory

theorem gaussPdf_pos (x : ℝ) : 0 < gaussPdf x := by
  unfold gaussPdf; have := Real.pi_pos; positivity

theorem gaussPdf_continuous : Continuous gaussPdf := by unfold gaussPdf; fun_prop

theorem gaussPdf_integrable : Integrable gaussPdf := by
  have h := (integrable_exp_neg_mul_sq (show (0 : ℝ) < 1 / 2 by norm_num)).const_mul (Real.sqrt (2 * Real.pi))⁻¹
  refine h.congr (Eventually.of_forall fun x => ?_)
  simp only [gaussPdf]; congr 2; ring

theorem gaussPdf_integral : ∫ x, gaussPdf x = 1 := by
  have h : gaussPdf = fun x => (Real.sqrt (2 * Real.pi))⁻¹ * Real.exp (-(1 / 2) * x ^ 2) := by
    funext x; simp only [gaussPdf]; congr 2; ring
  rw [h, MeasureTheory.integral_const_mul, integral_gaussian]
  rw [show Real.pi / (1 / 2) = 2 * Real.pi by ring]
  have : Real.sqrt (2 * Real.pi) ≠ 0 := by have := Real.pi_pos; positivity
  field_simp

theorem gaussPdf_neg (x : ℝ) : gaussPdf (-x) = gaussPdf x := by simp [gaussPdf]

theorem gaussCdf_deriv (x : ℝ) : HasDerivAt gaussCdf (gaussPdf x) x := by
  have h : gaussCdf = fun u => (∫ t in (0 : ℝ)..u, gaussPdf t) + gaussCdf 0 := by
    funext u
    rw [← intervalIntegral.integral_Iic_sub_Iic gaussPdf_integrable.integrableOn gaussPdf_integrable.integrableOn]
    simp [gaussCdf]
  rw [h]
  refine (intervalIntegral.integral_hasDerivAt_right ?_ ?_ gaussPdf_continuous.continuousAt).add_const _
  · exact gaussPdf_continuous.intervalIntegrable _ _
  · exact gaussPdf_continuous.stronglyMeasurableAtFilter _ _

theorem gaussPdf_deriv (x : ℝ) : HasDerivAt gaussPdf (-x * gaussPdf x) x := by
  have h1 : HasDerivAt (fun y : ℝ => -y ^ 2 / 2) (-x) x := by
    have := ((hasDerivAt_pow 2 x).neg).div_const 2
    refine this.congr_deriv ?_
    simp only [Nat.cast_ofNat]; ring
  have h2 := (h1.exp).const_mul (Real.sqrt (2 * Real.pi))⁻¹
  refine h2.congr_deriv ?_
  simp only [gaussPdf]; ring

/-! ## What the formulas compute -/

section
variable {t K F σ : ℝ}

theorem vol_ne (ht : 0 < t) (hσ : σ ≠ 0) : σ * Real.sqrt t ≠ 0 :=
  mul_ne_zero hσ (Real.sqrt_ne_zero'.2 ht)

theorem normalD_ok (ht : 0 < t) (hσ : σ ≠ 0) (K F : ℝ) :
    normalD (.ok t) K F σ = .ok (σ * Real.sqrt t, docD t K F σ) := by
  simp only [normalD, volOfTime, Py.ok_bind, pySqrt_ok ht.le, pyDiv_ok (vol_ne ht hσ), docD]

theorem logNormalD_ok (ht : 0 < t) (hσ : σ ≠ 0) (h : 0 < F / K) :
    logNormalD (.ok t) K F σ = .ok (σ * Real.sqrt t, docLogD t K F σ) := by
  have hK : K ≠ 0 := by rintro rfl; simp at h
  simp only [logNormalD, volOfTime, Py.ok_bind, pySqrt_ok ht.le, pyDiv_ok (vol_ne ht hσ), docLogD, pyDiv_ok hK,
    pyLog_ok h]
  rw [mul_pow, Real.sq_sqrt ht.le]

theorem docD_deriv_fwd (t K F σ : ℝ) :
    HasDerivAt (fun F => docD t K F σ) (1 / (σ * Real.sqrt t)) F := by
  unfold docD
  exact ((hasDerivAt_id F).sub_const K).div_const _

theorem docD_deriv_vol (ht : 0 < t) (hσ : σ ≠ 0) (K F : ℝ) :
    HasDerivAt (fun σ => docD t K F σ) (-docD t K F σ / σ) σ := by
  unfold docD
  have hs : Real.sqrt t ≠ 0 := Real.sqrt_ne_zero'.2 ht
  have := ((hasDerivAt_const σ (F - K)).div ((hasDerivAt_id σ).mul_const (Real.sqrt t)) (vol_ne ht hσ))
  refine this.congr_deriv ?_
  simp only [id]
  field_simp
  ring

theorem docLogD_deriv_fwd (hF : F ≠ 0) (hK : K ≠ 0) (t σ : ℝ) :
    HasDerivAt (fun F => docLogD t K F σ) (1 / (F * (σ * Real.sqrt t))) F := by
  unfold docLogD
  have h1 : HasDerivAt (fun F : ℝ => Real.log (F / K)) (1 / F) F := by
    have := ((hasDerivAt_id F).div_const K).log (div_ne_zero hF hK)
    refine this.congr_deriv ?_
    simp only [id]; field_simp
  have := (h1.add_const (σ ^ 2 * t / 2)).div_const (σ * Real.sqrt t)
  refine this.congr_deriv ?_
  field_simp

theorem docLogD_deriv_vol (ht : 0 < t) (hσ : σ ≠ 0) (K F : ℝ) :
    HasDerivAt (fun σ => docLogD t K F σ) (-(docLogD t K F σ - σ * Real.sqrt t) / σ) σ := by
  unfold docLogD
  have hs : Real.sqrt t ≠ 0 := Real.sqrt_ne_zero'.2 ht
  have h1 : HasDerivAt (fun σ : ℝ => Real.log (F / K) + σ ^ 2 * t / 2) (σ * t) σ := by
    have := (((hasDerivAt_pow 2 σ).mul_const t).div_const 2).const_add (Real.log (F / K))
    refine this.congr_deriv ?_
    simp; ring
  have := h1.div ((hasDerivAt_id σ).mul_const (Real.sqrt t)) (vol_ne ht hσ)
  refine this.congr_deriv ?_
  simp only [id]
  have hsq : Real.sqrt t ^ 2 = t := Real.sq_sqrt ht.le
  field_simp
  rw [hsq]
  ring

/-- The identity behind the log-normal greeks. -/
theorem logNormal_key (ht : 0 < t) (hσ : σ ≠ 0) (hF : 0 < F) (hK : 0 < K) :
    F * gaussPdf (docLogD t K F σ) = K * gaussPdf (docLogD t K F σ - σ * Real.sqrt t) := by
  have hs : Real.sqrt t ≠ 0 := Real.sqrt_ne_zero'.2 ht
  have hsq : Real.sqrt t ^ 2 = t := Real.sq_sqrt ht.le
  have hl : docLogD t K F σ * (σ * Real.sqrt t) = Real.log (F / K) + σ ^ 2 * t / 2 := by
    unfold docLogD; field_simp
  set d := docLogD t K F σ
  have he : -(d - σ * Real.sqrt t) ^ 2 / 2 = Real.log (F / K) + -d ^ 2 / 2 := by
    have : (σ * Real.sqrt t) ^ 2 = σ ^ 2 * t := by rw [mul_pow, hsq]
    nlinarith
  simp only [gaussPdf, he, Real.exp_add, Real.exp_log (div_pos hF hK)]
  field_simp

end

end Dcf
