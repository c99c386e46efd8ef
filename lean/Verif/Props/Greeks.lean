import Verif.Lemmas.Greeks
import Verif.Props.Options

/-! # Option formulas: C68, C69, C70, C98 -/

set_option linter.unusedSectionVars false
set_option linter.unusedSimpArgs false
set_option linter.unusedVariables false

namespace Dcf

open Spec Filter Topology

section
variable {t K F σ : ℝ}

/-! ## C69: greeks are derivatives -/

theorem IsDerivative.unique {p : ℝ → Py ℝ} {g : Py (Option ℝ)} {x : ℝ} {f : ℝ → ℝ} {a b : ℝ}
    (h : IsDerivative p g x) (hp : ∀ᶠ y in 𝓝 x, p y = .ok (f y)) (hg : g = .ok (some a)) (hf : HasDerivAt f b x) :
    a = b := by
  obtain ⟨f₁, g₁, h1, h2, h3⟩ := h
  rw [hg] at h2
  obtain rfl : a = g₁ := by simpa using h2
  refine h3.unique (hf.congr_of_eventuallyEq ?_)
  filter_upwards [hp, h1] with y h h'
  rw [h] at h'
  exact (Except.ok.inj h').symm

theorem IsSecondDerivative.unique {p : ℝ → Py ℝ} {g : Py (Option ℝ)} {x : ℝ} {f f' : ℝ → ℝ} {a b : ℝ}
    (h : IsSecondDerivative p g x) (hp : ∀ᶠ y in 𝓝 x, p y = .ok (f y)) (hf : ∀ᶠ y in 𝓝 x, HasDerivAt f (f' y) y)
    (hg : g = .ok (some a)) (hf' : HasDerivAt f' b x) : a = b := by
  obtain ⟨f₁, f₁', g₁, h1, h2, h3⟩ := h
  rw [hg] at h2
  obtain rfl : a = g₁ := by simpa using h2
  refine h3.unique (hf'.congr_of_eventuallyEq ?_)
  have he : ∀ᶠ y in 𝓝 x, f₁ =ᶠ[𝓝 y] f := by
    have := hp.and h1
    filter_upwards [this.eventually_nhds] with y hy
    filter_upwards [hy] with z hz
    have := hz.2.1
    rw [hz.1] at this
    exact (Except.ok.inj this).symm
  filter_upwards [h1, hf, he] with y h1 hf he
  exact (h1.2.congr_of_eventuallyEq he.symm).unique hf

theorem eventually_pos {x : ℝ} (h : 0 < x) : ∀ᶠ y in 𝓝 x, 0 < y := lt_mem_nhds h

theorem eventually_ne {x : ℝ} (h : x ≠ 0) : ∀ᶠ y in 𝓝 x, y ≠ 0 := isOpen_ne.mem_nhds h

/-! ### The normal model -/

theorem normal_price (N : NormalDist) (ht : 0 < t) (hσ : σ ≠ 0) (K F : ℝ) : (normalFormula N).price (.ok t) K F σ =
    .ok ((F - K) * N.cdf (docD t K F σ) + σ * Real.sqrt t * N.pdf (docD t K F σ)) := by
  simp only [normalFormula, normalD_ok ht hσ, Py.ok_bind]

theorem normal_price_deriv (ht : 0 < t) (hσ : σ ≠ 0) (K F : ℝ) :
    HasDerivAt (fun F => (F - K) * gaussCdf (docD t K F σ) + σ * Real.sqrt t * gaussPdf (docD t K F σ))
      (gaussCdf (docD t K F σ)) F := by
  have h1 := (gaussCdf_deriv (docD t K F σ)).comp F (docD_deriv_fwd t K F σ)
  have h2 := (gaussPdf_deriv (docD t K F σ)).comp F (docD_deriv_fwd t K F σ)
  have h := (((hasDerivAt_id F).sub_const K).mul h1).add (h2.const_mul (σ * Real.sqrt t))
  refine h.congr_deriv ?_
  have hv := vol_ne ht hσ
  have hd : F - K = docD t K F σ * (σ * Real.sqrt t) := by unfold docD; field_simp
  simp only [Function.comp_apply, id]
  rw [hd]
  field_simp
  ring

/-- C69: the delta of the normal model is the derivative of its price in the forward. -/
theorem C69_normal_delta (ht : 0 < t) (hσ : σ ≠ 0) (K F : ℝ) :
    IsDerivative (fun F => (normalFormula exactDist).price (.ok t) K F σ)
      ((normalFormula exactDist).delta (.ok t) K F σ) F :=
  ⟨_, _, Eventually.of_forall fun y => normal_price exactDist ht hσ K y,
    by simp only [normalFormula, normalD_ok ht hσ, Py.ok_bind]; rfl, normal_price_deriv ht hσ K F⟩

/-- C69: the gamma of the normal model is the second derivative of its price in the forward. -/
theorem C69_normal_gamma (ht : 0 < t) (hσ : σ ≠ 0) (K F : ℝ) :
    IsSecondDerivative (fun F => (normalFormula exactDist).price (.ok t) K F σ)
      ((normalFormula exactDist).gamma (.ok t) K F σ) F := by
  refine ⟨_, _, gaussPdf (docD t K F σ) / (σ * Real.sqrt t), Eventually.of_forall fun y =>
    ⟨normal_price exactDist ht hσ K y, normal_price_deriv ht hσ K y⟩, ?_, ?_⟩
  · simp only [normalFormula, normalD_ok ht hσ, Py.ok_bind, pyDiv_ok (vol_ne ht hσ)]; rfl
  · refine ((gaussCdf_deriv (docD t K F σ)).comp F (docD_deriv_fwd t K F σ)).congr_deriv ?_
    ring

/-- C69: the vega of the normal model is the derivative of its price in the volatility. -/
theorem C69_normal_vega (ht : 0 < t) (hσ : σ ≠ 0) (K F : ℝ) :
    IsDerivative (fun σ => (normalFormula exactDist).price (.ok t) K F σ)
      ((normalFormula exactDist).vega (.ok t) K F σ) σ := by
  refine ⟨fun σ => (F - K) * gaussCdf (docD t K F σ) + σ * Real.sqrt t * gaussPdf (docD t K F σ),
    Real.sqrt t * gaussPdf (docD t K F σ), ?_, ?_, ?_⟩
  · filter_upwards [eventually_ne hσ] with y hy using normal_price exactDist ht hy K F
  · simp only [normalFormula, normalD_ok ht hσ, Py.ok_bind, pySqrt_ok ht.le]; rfl
  · have h1 := (gaussCdf_deriv (docD t K F σ)).comp σ (docD_deriv_vol ht hσ K F)
    have h2 := (gaussPdf_deriv (docD t K F σ)).comp σ (docD_deriv_vol ht hσ K F)
    have h := (h1.const_mul (F - K)).add (((hasDerivAt_id σ).mul_const (Real.sqrt t)).mul h2)
    refine h.congr_deriv ?_
    have hv := vol_ne ht hσ
    have hd : F - K = docD t K F σ * (σ * Real.sqrt t) := by unfold docD; field_simp
    simp only [Function.comp_apply, id]
    rw [hd]
    field_simp
    ring

/-! ### The binary normal model -/

theorem binaryNormal_price (N : NormalDist) (ht : 0 < t) (hσ : σ ≠ 0) (K F : ℝ) :
    (binaryNormalFormula N).price (.ok t) K F σ = .ok (N.cdf (docD t K F σ)) := by
  simp only [binaryNormalFormula, normalD_ok ht hσ, Py.ok_bind]

theorem binaryNormal_price_deriv (t K F σ : ℝ) : HasDerivAt (fun F => gaussCdf (docD t K F σ))
      (gaussPdf (docD t K F σ) / (σ * Real.sqrt t)) F := by
  refine ((gaussCdf_deriv (docD t K F σ)).comp F (docD_deriv_fwd t K F σ)).congr_deriv ?_
  ring

/-- C69: the delta of the binary normal model is the derivative of its price in the forward. -/
theorem C69_binary_normal_delta (ht : 0 < t) (hσ : σ ≠ 0) (K F : ℝ) :
    IsDerivative (fun F => (binaryNormalFormula exactDist).price (.ok t) K F σ)
      ((binaryNormalFormula exactDist).delta (.ok t) K F σ) F :=
  ⟨_, _, Eventually.of_forall fun y => binaryNormal_price exactDist ht hσ K y,
    by simp only [binaryNormalFormula, normalD_ok ht hσ, Py.ok_bind, pyDiv_ok (vol_ne ht hσ)]; rfl,
    binaryNormal_price_deriv t K F σ⟩

/-- C69 fails: the gamma of the binary normal model has the wrong sign (and an extra factor time); it is the second
derivative of the price only at the money. -/
theorem C69_binary_normal_gamma_violated (ht : 0 < t) (hσ : σ ≠ 0) (K F : ℝ) :
    IsSecondDerivative (fun F => (binaryNormalFormula exactDist).price (.ok t) K F σ)
      ((binaryNormalFormula exactDist).gamma (.ok t) K F σ) F ↔ F = K := by
  have hv := vol_ne ht hσ
  have hp : ∀ y, (binaryNormalFormula exactDist).price (.ok t) K y σ = .ok (gaussCdf (docD t K y σ)) :=
    fun y => binaryNormal_price exactDist ht hσ K y
  have hg : (binaryNormalFormula exactDist).gamma (.ok t) K F σ = .ok (some (docD t K F σ * gaussPdf (docD t K F σ) /
      (σ * Real.sqrt t * (σ * Real.sqrt t) * t))) := by
    simp only [binaryNormalFormula, normalD_ok ht hσ, Py.ok_bind, pyDiv_ok (mul_ne_zero (mul_ne_zero hv hv) ht.ne')]
    rfl
  have hd : HasDerivAt (fun F => gaussPdf (docD t K F σ) / (σ * Real.sqrt t))
      (-(docD t K F σ * gaussPdf (docD t K F σ) / (σ * Real.sqrt t * (σ * Real.sqrt t)))) F := by
    refine (((gaussPdf_deriv (docD t K F σ)).comp F (docD_deriv_fwd t K F σ)).div_const _).congr_deriv ?_
    field_simp
  constructor
  · intro h
    have := IsSecondDerivative.unique h (Eventually.of_forall hp) (Eventually.of_forall fun y => binaryNormal_price_deriv t K y σ) hg hd
    have hpos := gaussPdf_pos (docD t K F σ)
    have h0 : docD t K F σ = 0 := by
      have hs := Real.sqrt_pos.2 ht
      field_simp at this
      have h1 : docD t K F σ * (1 + t) = 0 := by linarith
      exact (mul_eq_zero.1 h1).resolve_right (by positivity)
    unfold docD at h0
    rcases div_eq_zero_iff.1 h0 with h | h
    · linarith
    · exact absurd h hv
  · rintro rfl
    refine ⟨_, _, _, Eventually.of_forall fun y => ⟨hp y, binaryNormal_price_deriv t F y σ⟩, hg, ?_⟩
    refine hd.congr_deriv ?_
    simp [docD]

/-- C69 fails: the vega of the binary normal model is the derivative of its price in the volatility only if the
forward is below the strike by exactly the variance. -/
theorem C69_binary_normal_vega_violated (ht : 0 < t) (hσ : σ ≠ 0) (K F : ℝ) :
    IsDerivative (fun σ => (binaryNormalFormula exactDist).price (.ok t) K F σ)
      ((binaryNormalFormula exactDist).vega (.ok t) K F σ) σ ↔ K - F = σ ^ 2 * t := by
  have hv := vol_ne ht hσ
  have hs := Real.sqrt_pos.2 ht
  have hsq : Real.sqrt t ^ 2 = t := Real.sq_sqrt ht.le
  have hp : ∀ᶠ y in 𝓝 σ, (binaryNormalFormula exactDist).price (.ok t) K F y = .ok (gaussCdf (docD t K F y)) := by
    filter_upwards [eventually_ne hσ] with y hy using binaryNormal_price exactDist ht hy K F
  have hg : (binaryNormalFormula exactDist).vega (.ok t) K F σ = .ok (some (Real.sqrt t * gaussPdf (docD t K F σ))) := by
    simp only [binaryNormalFormula, normalD_ok ht hσ, Py.ok_bind, pySqrt_ok ht.le]; rfl
  have hd := (gaussCdf_deriv (docD t K F σ)).comp σ (docD_deriv_vol ht hσ K F)
  have hpos := gaussPdf_pos (docD t K F σ)
  have key : Real.sqrt t * gaussPdf (docD t K F σ) = gaussPdf (docD t K F σ) * (-docD t K F σ / σ) ↔
      K - F = σ ^ 2 * t := by
    have hx : docD t K F σ * (σ * Real.sqrt t) = F - K := by unfold docD; field_simp
    rw [mul_comm (Real.sqrt t), mul_right_inj' hpos.ne', eq_div_iff hσ]
    constructor
    · intro h
      have : docD t K F σ = -(Real.sqrt t * σ) := by linarith
      rw [this] at hx
      nlinarith
    · intro h
      have : (docD t K F σ + σ * Real.sqrt t) * (σ * Real.sqrt t) = 0 := by nlinarith
      have := (mul_eq_zero.1 this).resolve_right hv
      linarith
  rw [← key]
  constructor
  · intro h; exact IsDerivative.unique h hp hg hd
  · intro h; exact ⟨_, _, hp, hg, hd.congr_deriv h.symm⟩

/-! ### The log-normal model -/

theorem logNormal_price (N : NormalDist) (ht : 0 < t) (hσ : σ ≠ 0) (h : 0 < F / K) :
    (logNormalFormula N).price (.ok t) K F σ =
      .ok (F * N.cdf (docLogD t K F σ) - K * N.cdf (docLogD t K F σ - σ * Real.sqrt t)) := by
  simp only [logNormalFormula, logNormalD_ok ht hσ h, Py.ok_bind]

theorem logNormal_price_deriv (ht : 0 < t) (hσ : σ ≠ 0) (hF : 0 < F) (hK : 0 < K) :
    HasDerivAt (fun F => F * gaussCdf (docLogD t K F σ) - K * gaussCdf (docLogD t K F σ - σ * Real.sqrt t))
      (gaussCdf (docLogD t K F σ)) F := by
  have hd := docLogD_deriv_fwd hF.ne' hK.ne' t σ
  have h1 := (gaussCdf_deriv (docLogD t K F σ)).comp F hd
  have h2 := (gaussCdf_deriv (docLogD t K F σ - σ * Real.sqrt t)).comp F (hd.sub_const (σ * Real.sqrt t))
  refine (((hasDerivAt_id F).mul h1).sub (h2.const_mul K)).congr_deriv ?_
  simp only [id, Function.comp_apply]
  have := logNormal_key ht hσ hF hK
  linear_combination (1 / (F * (σ * Real.sqrt t))) * this

theorem logNormal_price_vega (ht : 0 < t) (hσ : σ ≠ 0) (hF : 0 < F) (hK : 0 < K) :
    HasDerivAt (fun σ => F * gaussCdf (docLogD t K F σ) - K * gaussCdf (docLogD t K F σ - σ * Real.sqrt t))
      (F * Real.sqrt t * gaussPdf (docLogD t K F σ)) σ := by
  have hd := docLogD_deriv_vol ht hσ K F
  have h1 := (gaussCdf_deriv (docLogD t K F σ)).comp σ hd
  have h2 := (gaussCdf_deriv (docLogD t K F σ - σ * Real.sqrt t)).comp σ
    (hd.sub ((hasDerivAt_id σ).mul_const (Real.sqrt t)))
  refine ((h1.const_mul F).sub (h2.const_mul K)).congr_deriv ?_
  have := logNormal_key ht hσ hF hK
  linear_combination (-(docLogD t K F σ - σ * Real.sqrt t) / σ - Real.sqrt t) * this

/-- C69: the delta of the log-normal model is the derivative of its price in the forward. -/
theorem C69_log_normal_delta (ht : 0 < t) (hσ : σ ≠ 0) (hF : 0 < F) (hK : 0 < K) :
    IsDerivative (fun F => (logNormalFormula exactDist).price (.ok t) K F σ)
      ((logNormalFormula exactDist).delta (.ok t) K F σ) F := by
  refine ⟨_, _, ?_, ?_, logNormal_price_deriv ht hσ hF hK⟩
  · filter_upwards [eventually_pos hF] with y hy using logNormal_price exactDist ht hσ (div_pos hy hK)
  · simp only [logNormalFormula, logNormalD_ok ht hσ (div_pos hF hK), Py.ok_bind]; rfl

/-- C69 fails: the log-normal model has no gamma of its own. -/
theorem C69_log_normal_gamma_violated (N : NormalDist) (time : Py ℝ) (K F σ : ℝ) :
    (logNormalFormula N).gamma time K F σ = .ok none ∧ (binaryLogNormalFormula N).gamma time K F σ = .ok none :=
  ⟨rfl, rfl⟩

/-- C69 fails: the vega of the log-normal model is the derivative of its price in the volatility only at the money. -/
theorem C69_log_normal_vega_violated (ht : 0 < t) (hσ : σ ≠ 0) (hF : 0 < F) (hK : 0 < K) :
    IsDerivative (fun σ => (logNormalFormula exactDist).price (.ok t) K F σ)
      ((logNormalFormula exactDist).vega (.ok t) K F σ) σ ↔ F = K := by
  have hp : ∀ᶠ y in 𝓝 σ, (logNormalFormula exactDist).price (.ok t) K F y =
      .ok (F * gaussCdf (docLogD t K F y) - K * gaussCdf (docLogD t K F y - y * Real.sqrt t)) := by
    filter_upwards [eventually_ne hσ] with y hy using logNormal_price exactDist ht hy (div_pos hF hK)
  have hg : (logNormalFormula exactDist).vega (.ok t) K F σ =
      .ok (some (F * Real.sqrt t * gaussPdf (docLogD t K F σ - σ * Real.sqrt t))) := by
    simp only [logNormalFormula, logNormalD_ok ht hσ (div_pos hF hK), Py.ok_bind, pySqrt_ok ht.le]; rfl
  have hd := logNormal_price_vega ht hσ hF hK
  have hk := logNormal_key ht hσ hF hK
  have hpos := gaussPdf_pos (docLogD t K F σ - σ * Real.sqrt t)
  have hs := Real.sqrt_pos.2 ht
  have key : F * Real.sqrt t * gaussPdf (docLogD t K F σ - σ * Real.sqrt t) =
      F * Real.sqrt t * gaussPdf (docLogD t K F σ) ↔ F = K := by
    rw [mul_right_inj' (by positivity)]
    constructor
    · intro h
      rw [← h] at hk
      exact mul_right_cancel₀ hpos.ne' hk
    · intro h
      rw [h] at hk ⊢
      exact (mul_left_cancel₀ hK.ne' hk).symm
  rw [← key]
  constructor
  · intro h; exact IsDerivative.unique h hp hg hd
  · intro h; exact ⟨_, _, hp, hg, hd.congr_deriv h.symm⟩

/-! ### The binary log-normal model -/

theorem binaryLogNormal_price (N : NormalDist) (ht : 0 < t) (hσ : σ ≠ 0) (h : 0 < F / K) :
    (binaryLogNormalFormula N).price (.ok t) K F σ = .ok (N.cdf (docLogD t K F σ)) := by
  simp only [binaryLogNormalFormula, logNormalD_ok ht hσ h, Py.ok_bind]

/-- C69 fails: the delta of the binary log-normal model is the derivative of its price in the forward only at the
money. -/
theorem C69_binary_log_normal_delta_violated (ht : 0 < t) (hσ : σ ≠ 0) (hF : 0 < F) (hK : 0 < K) :
    IsDerivative (fun F => (binaryLogNormalFormula exactDist).price (.ok t) K F σ)
      ((binaryLogNormalFormula exactDist).delta (.ok t) K F σ) F ↔ F = K := by
  have hv := vol_ne ht hσ
  have hp : ∀ᶠ y in 𝓝 F, (binaryLogNormalFormula exactDist).price (.ok t) K y σ = .ok (gaussCdf (docLogD t K y σ)) := by
    filter_upwards [eventually_pos hF] with y hy using binaryLogNormal_price exactDist ht hσ (div_pos hy hK)
  have hg : (binaryLogNormalFormula exactDist).delta (.ok t) K F σ =
      .ok (some (gaussPdf (docLogD t K F σ - σ * Real.sqrt t) / (σ * Real.sqrt t * F))) := by
    simp only [binaryLogNormalFormula, logNormalD_ok ht hσ (div_pos hF hK), Py.ok_bind,
      pyDiv_ok (mul_ne_zero hv hF.ne')]
    rfl
  have hd := (gaussCdf_deriv (docLogD t K F σ)).comp F (docLogD_deriv_fwd hF.ne' hK.ne' t σ)
  have hk := logNormal_key ht hσ hF hK
  have hpos := gaussPdf_pos (docLogD t K F σ - σ * Real.sqrt t)
  have key : gaussPdf (docLogD t K F σ - σ * Real.sqrt t) / (σ * Real.sqrt t * F) =
      gaussPdf (docLogD t K F σ) * (1 / (F * (σ * Real.sqrt t))) ↔ F = K := by
    rw [mul_one_div, mul_comm F, div_left_inj' (mul_ne_zero hv hF.ne')]
    constructor
    · intro h
      rw [← h] at hk
      exact mul_right_cancel₀ hpos.ne' hk
    · intro h
      rw [h] at hk ⊢
      exact (mul_left_cancel₀ hK.ne' hk).symm
  rw [← key]
  constructor
  · intro h; exact IsDerivative.unique h hp hg hd
  · intro h; exact ⟨_, _, hp, hg, hd.congr_deriv h.symm⟩

/-- C69 fails: the vega of the binary log-normal model has the wrong sign; it is the derivative of the price in the
volatility only where that derivative is 0. -/
theorem C69_binary_log_normal_vega_violated (ht : 0 < t) (hσ : σ ≠ 0) (hF : 0 < F) (hK : 0 < K) :
    IsDerivative (fun σ => (binaryLogNormalFormula exactDist).price (.ok t) K F σ)
      ((binaryLogNormalFormula exactDist).vega (.ok t) K F σ) σ ↔ Real.log (F / K) = σ ^ 2 * t / 2 := by
  have hv := vol_ne ht hσ
  have hsq : Real.sqrt t ^ 2 = t := Real.sq_sqrt ht.le
  have hp : ∀ᶠ y in 𝓝 σ, (binaryLogNormalFormula exactDist).price (.ok t) K F y = .ok (gaussCdf (docLogD t K F y)) := by
    filter_upwards [eventually_ne hσ] with y hy using binaryLogNormal_price exactDist ht hy (div_pos hF hK)
  have hg : (binaryLogNormalFormula exactDist).vega (.ok t) K F σ =
      .ok (some ((docLogD t K F σ - σ * Real.sqrt t) * gaussPdf (docLogD t K F σ) / σ)) := by
    simp only [binaryLogNormalFormula, logNormalD_ok ht hσ (div_pos hF hK), Py.ok_bind, pyDiv_ok hσ]
    rfl
  have hd := (gaussCdf_deriv (docLogD t K F σ)).comp σ (docLogD_deriv_vol ht hσ K F)
  have hpos := gaussPdf_pos (docLogD t K F σ)
  have hx : docLogD t K F σ * (σ * Real.sqrt t) = Real.log (F / K) + σ ^ 2 * t / 2 := by unfold docLogD; field_simp
  have hvv : (σ * Real.sqrt t) * (σ * Real.sqrt t) = σ ^ 2 * t := by rw [← sq, mul_pow, hsq]
  have key : (docLogD t K F σ - σ * Real.sqrt t) * gaussPdf (docLogD t K F σ) / σ =
      gaussPdf (docLogD t K F σ) * (-(docLogD t K F σ - σ * Real.sqrt t) / σ) ↔
      Real.log (F / K) = σ ^ 2 * t / 2 := by
    rw [mul_comm (docLogD t K F σ - σ * Real.sqrt t), mul_div_assoc, mul_right_inj' hpos.ne', div_left_inj' hσ]
    constructor
    · intro h
      have : docLogD t K F σ = σ * Real.sqrt t := by linarith
      rw [this, hvv] at hx
      linarith
    · intro h
      have : (docLogD t K F σ - σ * Real.sqrt t) * (σ * Real.sqrt t) = 0 := by rw [sub_mul, hx, hvv, h]; ring
      have := (mul_eq_zero.1 this).resolve_right hv
      rw [this, neg_zero]
  rw [← key]
  constructor
  · intro h; exact IsDerivative.unique h hp hg hd
  · intro h; exact ⟨_, _, hp, hg, hd.congr_deriv h.symm⟩

/-! ### Intrinsic models -/

/-- C69: away from the strike the greeks of the intrinsic models are the derivatives of the intrinsic values. -/
theorem C69_intrinsic (time : Py ℝ) (h : F ≠ K) (σ : ℝ) :
    IsDerivative (fun F => intrinsicFormula.price time K F σ) (intrinsicFormula.delta time K F σ) F ∧
    IsSecondDerivative (fun F => intrinsicFormula.price time K F σ) (intrinsicFormula.gamma time K F σ) F ∧
    IsDerivative (fun σ => intrinsicFormula.price time K F σ) (intrinsicFormula.vega time K F σ) σ ∧
    IsDerivative (fun F => binaryIntrinsicFormula.price time K F σ) (binaryIntrinsicFormula.delta time K F σ) F ∧
    IsSecondDerivative (fun F => binaryIntrinsicFormula.price time K F σ) (binaryIntrinsicFormula.gamma time K F σ) F ∧
    IsDerivative (fun σ => binaryIntrinsicFormula.price time K F σ) (binaryIntrinsicFormula.vega time K F σ) σ := by
  rcases lt_or_gt_of_ne h with h | h
  · have he : ∀ᶠ y in 𝓝 F, y < K := gt_mem_nhds h
    refine ⟨⟨fun _ => 0, 0, ?_, by simp [intrinsicFormula, h], hasDerivAt_const _ _⟩,
      ⟨fun _ => 0, fun _ => 0, 0, ?_, rfl, hasDerivAt_const _ _⟩,
      ⟨fun _ => 0, 0, Eventually.of_forall fun y => ?_, rfl, hasDerivAt_const _ _⟩,
      ⟨fun _ => 0, 0, ?_, rfl, hasDerivAt_const _ _⟩,
      ⟨fun _ => 0, fun _ => 0, 0, ?_, rfl, hasDerivAt_const _ _⟩,
      ⟨fun _ => 0, 0, Eventually.of_forall fun y => ?_, rfl, hasDerivAt_const _ _⟩⟩
    · filter_upwards [he] with y hy
      simp [intrinsicFormula, hy.le]
    · filter_upwards [he] with y hy
      exact ⟨by simp [intrinsicFormula, hy.le], hasDerivAt_const _ _⟩
    · simp [intrinsicFormula, h.le]
    · filter_upwards [he] with y hy
      simp [binaryIntrinsicFormula, hy.le]
    · filter_upwards [he] with y hy
      exact ⟨by simp [binaryIntrinsicFormula, hy.le], hasDerivAt_const _ _⟩
    · simp [binaryIntrinsicFormula, h.le]
  · have he : ∀ᶠ y in 𝓝 F, K < y := lt_mem_nhds h
    have h1 : ∀ y : ℝ, HasDerivAt (fun F => F - K) 1 y := fun y => (hasDerivAt_id y).sub_const K
    refine ⟨⟨fun F => F - K, 1, ?_, by simp [intrinsicFormula, h.not_gt], h1 F⟩,
      ⟨fun F => F - K, fun _ => 1, 0, ?_, rfl, hasDerivAt_const _ _⟩,
      ⟨fun _ => F - K, 0, Eventually.of_forall fun y => ?_, rfl, hasDerivAt_const _ _⟩,
      ⟨fun _ => 1, 0, ?_, rfl, hasDerivAt_const _ _⟩,
      ⟨fun _ => 1, fun _ => 0, 0, ?_, rfl, hasDerivAt_const _ _⟩,
      ⟨fun _ => 1, 0, Eventually.of_forall fun y => ?_, rfl, hasDerivAt_const _ _⟩⟩
    · filter_upwards [he] with y hy
      simp [intrinsicFormula, hy.le]
    · filter_upwards [he] with y hy
      exact ⟨by simp [intrinsicFormula, hy.le], h1 y⟩
    · simp [intrinsicFormula, h.le]
    · filter_upwards [he] with y hy
      simp [binaryIntrinsicFormula, hy.not_ge]
    · filter_upwards [he] with y hy
      exact ⟨by simp [binaryIntrinsicFormula, hy.not_ge], hasDerivAt_const _ _⟩
    · simp [binaryIntrinsicFormula, h.not_ge]

/-- C69: the hypotheses hold for a one year option with volatility 20% that is not at the money. -/
example : (0 : ℝ) < 1 ∧ (0.2 : ℝ) ≠ 0 ∧ (0 : ℝ) < 100 ∧ (0 : ℝ) < 90 ∧ (100 : ℝ) ≠ 90 := by norm_num

end

/-! ### The hypotheses can be met: each theorem applied -/

example := C69_normal_delta (one_pos : (0 : ℝ) < 1) (σ := 1 / 5) (by norm_num) 90 100
example := C69_normal_gamma (one_pos : (0 : ℝ) < 1) (σ := 1 / 5) (by norm_num) 90 100
example := C69_normal_vega (one_pos : (0 : ℝ) < 1) (σ := 1 / 5) (by norm_num) 90 100
example := C69_binary_normal_delta (one_pos : (0 : ℝ) < 1) (σ := 1 / 5) (by norm_num) 90 100
example : ¬ IsSecondDerivative (fun F => (binaryNormalFormula exactDist).price (.ok 1) 90 F (1 / 5))
    ((binaryNormalFormula exactDist).gamma (.ok 1) 90 100 (1 / 5)) 100 :=
  fun h => by simpa using (C69_binary_normal_gamma_violated (one_pos : (0 : ℝ) < 1) (by norm_num) 90 100).1 h
example : ¬ IsDerivative (fun σ => (binaryNormalFormula exactDist).price (.ok 1) 90 100 σ)
    ((binaryNormalFormula exactDist).vega (.ok 1) 90 100 (1 / 5)) (1 / 5) :=
  fun h => by have := (C69_binary_normal_vega_violated (one_pos : (0 : ℝ) < 1) (by norm_num) 90 100).1 h; norm_num at this
example := C69_log_normal_delta (K := 90) (F := 100) (one_pos : (0 : ℝ) < 1) (σ := 1 / 5) (by norm_num) (by norm_num) (by norm_num)
example : ¬ IsDerivative (fun σ => (logNormalFormula exactDist).price (.ok 1) 90 100 σ)
    ((logNormalFormula exactDist).vega (.ok 1) 90 100 (1 / 5)) (1 / 5) :=
  fun h => by have := (C69_log_normal_vega_violated (one_pos : (0 : ℝ) < 1) (by norm_num) (by norm_num) (by norm_num)).1 h; norm_num at this
example : ¬ IsDerivative (fun F => (binaryLogNormalFormula exactDist).price (.ok 1) 90 F (1 / 5))
    ((binaryLogNormalFormula exactDist).delta (.ok 1) 90 100 (1 / 5)) 100 :=
  fun h => by have := (C69_binary_log_normal_delta_violated (one_pos : (0 : ℝ) < 1) (by norm_num) (by norm_num) (by norm_num)).1 h; norm_num at this
example : ¬ IsDerivative (fun σ => (binaryLogNormalFormula exactDist).price (.ok 1) 100 90 σ)
    ((binaryLogNormalFormula exactDist).vega (.ok 1) 100 90 (1 / 5)) (1 / 5) := fun h => by
  have h1 := (C69_binary_log_normal_vega_violated (one_pos : (0 : ℝ) < 1) (by norm_num) (by norm_num) (by norm_num)).1 h
  have h2 : Real.log (90 / 100 : ℝ) < 0 := Real.log_neg (by norm_num) (by norm_num)
  norm_num at h1 h2
  linarith
example := C69_intrinsic (F := 100) (K := 90) (.ok 1) (by norm_num) (1 / 5)

end Dcf
