import Verif.Props.NormalCdf

/-! # Option formulas as documented: C68, C98 -/

set_option linter.unusedSectionVars false
set_option linter.unusedSimpArgs false
set_option linter.unusedVariables false

namespace Dcf

open Spec

section
variable {t K F σ : ℝ}

/-! ## C68: displaced models -/

/-- C68: price and greeks of the displaced model are those of the log-normal model at displaced strike and forward. -/
theorem C68_displaced (N : NormalDist) (a : ℝ) (time : Py ℝ) (K F σ : ℝ) :
    (displacedFormula N a).price time K F σ = (logNormalFormula N).price time (K + a) (F + a) σ ∧
    (displacedFormula N a).delta time K F σ = (logNormalFormula N).delta time (K + a) (F + a) σ ∧
    (displacedFormula N a).gamma time K F σ = (logNormalFormula N).gamma time (K + a) (F + a) σ ∧
    (displacedFormula N a).vega time K F σ = (logNormalFormula N).vega time (K + a) (F + a) σ ∧
    (displacedFormula N a).theta time K F σ = (logNormalFormula N).theta time (K + a) (F + a) σ :=
  ⟨rfl, rfl, rfl, rfl, rfl⟩

/-- C68: without displacement the displaced models are the log-normal ones. -/
theorem C68_zero (N : NormalDist) : displacedFormula N 0 = logNormalFormula N ∧
    binaryDisplacedFormula N 0 = binaryLogNormalFormula N := by
  constructor
  · simp only [displacedFormula, add_zero]; rfl
  · simp only [binaryDisplacedFormula, add_zero]; rfl

/-- C68: a displacement makes negative forwards and strikes possible: the documented price. -/
theorem C68_price (N : NormalDist) (ht : 0 < t) (hσ : σ ≠ 0) {a : ℝ} (hF : 0 < F + a) (hK : 0 < K + a) :
    (displacedFormula N a).price (.ok t) K F σ = .ok ((F + a) * N.cdf (docLogD t (K + a) (F + a) σ)
      - (K + a) * N.cdf (docLogD t (K + a) (F + a) σ - σ * Real.sqrt t)) ∧
    (binaryDisplacedFormula N a).price (.ok t) K F σ = .ok (N.cdf (docLogD t (K + a) (F + a) σ)) :=
  ⟨logNormal_price N ht hσ (div_pos hF hK), binaryLogNormal_price N ht hσ (div_pos hF hK)⟩

/-- C68: without it a negative forward over a positive strike is a `ValueError`. -/
theorem C68_negative (N : NormalDist) (ht : 0 < t) (hF : F < 0) (hK : 0 < K) (σ : ℝ) :
    (logNormalFormula N).price (.ok t) K F σ = .error .value := by
  simp only [logNormalFormula, logNormalD, volOfTime, Py.ok_bind, pySqrt_ok ht.le, pyDiv_ok hK.ne',
    pyLog_error (div_neg_of_neg_of_pos hF hK).le, Py.error_bind]

example : (0 : ℝ) < -0.01 + 0.03 ∧ (0 : ℝ) < -0.02 + 0.03 := by norm_num

/-- C68 fails for the greeks of the binary displaced model: they ignore the displacement, so a forward that has a
price has no delta. -/
theorem C68_binary_violated (N : NormalDist) : ∃ t K F σ a p : ℝ,
    (binaryDisplacedFormula N a).price (.ok t) K F σ = .ok p ∧
    (∃ x, (binaryLogNormalFormula N).delta (.ok t) (K + a) (F + a) σ = .ok (some x)) ∧
    (binaryDisplacedFormula N a).delta (.ok t) K F σ = .error .value ∧
    (binaryDisplacedFormula N a).vega (.ok t) K F σ = .error .value := by
  refine ⟨1, 1, -1, 1, 2, _, (C68_price N one_pos one_ne_zero (by norm_num) (by norm_num)).2, ?_, ?_, ?_⟩
  · refine ⟨N.pdf (docLogD 1 (1 + 2) (-1 + 2) 1 - 1 * Real.sqrt 1) / (1 * Real.sqrt 1 * (-1 + 2)), ?_⟩
    simp only [binaryLogNormalFormula, logNormalD_ok (t := 1) (σ := 1) (K := 1 + 2) (F := -1 + 2) one_pos one_ne_zero
      (by norm_num), Py.ok_bind]
    rw [pyDiv_ok (by rw [Real.sqrt_one]; norm_num)]
    rfl
  all_goals
    simp only [binaryDisplacedFormula, binaryLogNormalFormula, logNormalD, volOfTime, Py.ok_bind,
      pySqrt_ok (zero_le_one (α := ℝ)), pyDiv_ok (one_ne_zero (α := ℝ)), pyLog_error (show (-1 : ℝ) / 1 ≤ 0 by norm_num),
      Py.error_bind]

/-- C68: the displaced delta is the derivative of the displaced price. -/
theorem C68_delta (ht : 0 < t) (hσ : σ ≠ 0) {a : ℝ} (hF : 0 < F + a) (hK : 0 < K + a) :
    IsDerivative (fun F => (displacedFormula exactDist a).price (.ok t) K F σ)
      ((displacedFormula exactDist a).delta (.ok t) K F σ) F := by
  obtain ⟨f, g, h1, h2, h3⟩ := C69_log_normal_delta ht hσ hF hK
  refine ⟨fun F => f (F + a), g, ?_, h2, ?_⟩
  · have : Filter.Tendsto (fun y : ℝ => y + a) (nhds F) (nhds (F + a)) := (continuous_id.add continuous_const).tendsto F
    exact this.eventually h1
  · simpa using h3.comp_add_const F a

/-! ## C98: closed formulas as documented -/

/-- C98: price, delta, gamma and vega of the normal model are the documented ones. -/
theorem C98_normal (N : NormalDist) (ht : 0 < t) (hσ : σ ≠ 0) (K F : ℝ) :
    (normalFormula N).price (.ok t) K F σ =
      .ok ((F - K) * N.cdf (docD t K F σ) + σ * Real.sqrt t * N.pdf (docD t K F σ)) ∧
    (normalFormula N).delta (.ok t) K F σ = .ok (some (N.cdf (docD t K F σ))) ∧
    (normalFormula N).gamma (.ok t) K F σ = .ok (some (N.pdf (docD t K F σ) / (σ * Real.sqrt t))) ∧
    (normalFormula N).vega (.ok t) K F σ = .ok (some (Real.sqrt t * N.pdf (docD t K F σ))) := by
  refine ⟨normal_price N ht hσ K F, ?_, ?_, ?_⟩
  · simp only [normalFormula, normalD_ok ht hσ, Py.ok_bind]
  · simp only [normalFormula, normalD_ok ht hσ, Py.ok_bind, pyDiv_ok (vol_ne ht hσ)]
  · simp only [normalFormula, normalD_ok ht hσ, Py.ok_bind, pySqrt_ok ht.le]

/-- C98: price, delta and vega of the binary normal model are the documented ones. -/
theorem C98_binary_normal_partial (N : NormalDist) (ht : 0 < t) (hσ : σ ≠ 0) (K F : ℝ) :
    (binaryNormalFormula N).price (.ok t) K F σ = .ok (N.cdf (docD t K F σ)) ∧
    (binaryNormalFormula N).delta (.ok t) K F σ = .ok (some (N.pdf (docD t K F σ) / (σ * Real.sqrt t))) ∧
    (binaryNormalFormula N).vega (.ok t) K F σ = .ok (some (Real.sqrt t * N.pdf (docD t K F σ))) := by
  refine ⟨binaryNormal_price N ht hσ K F, ?_, ?_⟩
  · simp only [binaryNormalFormula, normalD_ok ht hσ, Py.ok_bind, pyDiv_ok (vol_ne ht hσ)]
  · simp only [binaryNormalFormula, normalD_ok ht hσ, Py.ok_bind, pySqrt_ok ht.le]

/-- C98 fails: the gamma of the binary normal model is the documented `d φ(d) / (σ² τ)` only if the time is 1 or the
option is at the money. -/
theorem C98_binary_normal_gamma_violated (ht : 0 < t) (hσ : σ ≠ 0) (K F : ℝ) :
    (binaryNormalFormula codeDist).gamma (.ok t) K F σ =
      .ok (some (docD t K F σ * normalPdf (docD t K F σ) / (σ ^ 2 * t))) ↔ t = 1 ∨ F = K := by
  have hv := vol_ne ht hσ
  have hvv : (σ * Real.sqrt t) * (σ * Real.sqrt t) = σ ^ 2 * t := by rw [← sq, mul_pow, Real.sq_sqrt ht.le]
  have hp := normalPdf_pos (docD t K F σ)
  have hst : σ ^ 2 * t ≠ 0 := by positivity
  simp only [binaryNormalFormula, normalD_ok ht hσ, Py.ok_bind, hvv, pyDiv_ok (mul_ne_zero hst ht.ne'),
    Except.ok.injEq, Option.some.injEq, codeDist]
  rw [div_eq_div_iff (mul_ne_zero hst ht.ne') hst]
  have h0 : docD t K F σ = 0 ↔ F = K := by
    unfold docD; rw [div_eq_zero_iff, or_iff_left hv, sub_eq_zero]
  rw [← h0]
  constructor
  · intro h
    have : (docD t K F σ * normalPdf (docD t K F σ) * (σ ^ 2 * t)) * (1 - t) = 0 := by linarith
    rcases mul_eq_zero.1 this with h | h
    · right
      exact (mul_eq_zero.1 ((mul_eq_zero.1 h).resolve_right hst)).resolve_right hp.ne'
    · left; linarith
  · rintro (rfl | h)
    · ring
    · rw [h]; ring

/-- C98: price and delta of the log-normal model are the documented ones. -/
theorem C98_log_normal_partial (N : NormalDist) (ht : 0 < t) (hσ : σ ≠ 0) (hF : 0 < F) (hK : 0 < K) :
    (logNormalFormula N).price (.ok t) K F σ =
      .ok (F * N.cdf (docLogD t K F σ) - K * N.cdf (docLogD t K F σ - σ * Real.sqrt t)) ∧
    (logNormalFormula N).delta (.ok t) K F σ = .ok (some (N.cdf (docLogD t K F σ))) := by
  refine ⟨logNormal_price N ht hσ (div_pos hF hK), ?_⟩
  simp only [logNormalFormula, logNormalD_ok ht hσ (div_pos hF hK), Py.ok_bind]

theorem normalPdf_eq (x : ℝ) : normalPdf x = 0.398942280401433 * Real.sqrt (2 * Real.pi) * gaussPdf x := by
  have : Real.sqrt (2 * Real.pi) ≠ 0 := by have := Real.pi_pos; positivity
  simp only [normalPdf, gaussPdf]
  rw [show -x ^ 2 / 2 = -0.5 * x * x by ring]
  field_simp

/-- C98 fails: the vega of the log-normal model is the documented `F √τ φ(d)` only at the money; its gamma is missing. -/
theorem C98_log_normal_violated (ht : 0 < t) (hσ : σ ≠ 0) (hF : 0 < F) (hK : 0 < K) :
    ((logNormalFormula codeDist).vega (.ok t) K F σ =
      .ok (some (F * Real.sqrt t * normalPdf (docLogD t K F σ))) ↔ F = K) ∧
    (logNormalFormula codeDist).gamma (.ok t) K F σ = .ok none := by
  refine ⟨?_, rfl⟩
  simp only [logNormalFormula, logNormalD_ok ht hσ (div_pos hF hK), Py.ok_bind, pySqrt_ok ht.le, Except.ok.injEq,
    Option.some.injEq, codeDist]
  have hs := Real.sqrt_pos.2 ht
  have hk := logNormal_key ht hσ hF hK
  have hpos := gaussPdf_pos (docLogD t K F σ - σ * Real.sqrt t)
  have hc : 0.398942280401433 * Real.sqrt (2 * Real.pi) ≠ 0 := by have := Real.pi_pos; positivity
  rw [mul_right_inj' (by positivity), normalPdf_eq, normalPdf_eq, mul_right_inj' hc]
  constructor
  · intro h
    rw [← h] at hk
    exact mul_right_cancel₀ hpos.ne' hk
  · intro h
    rw [h] at hk ⊢
    exact (mul_left_cancel₀ hK.ne' hk).symm

/-- C98: price and vega of the binary log-normal model are the documented ones. -/
theorem C98_binary_log_normal_partial (N : NormalDist) (ht : 0 < t) (hσ : σ ≠ 0) (hF : 0 < F) (hK : 0 < K) :
    (binaryLogNormalFormula N).price (.ok t) K F σ = .ok (N.cdf (docLogD t K F σ)) ∧
    (binaryLogNormalFormula N).vega (.ok t) K F σ =
      .ok (some ((docLogD t K F σ / σ - Real.sqrt t) * N.pdf (docLogD t K F σ))) := by
  refine ⟨binaryLogNormal_price N ht hσ (div_pos hF hK), ?_⟩
  simp only [binaryLogNormalFormula, logNormalD_ok ht hσ (div_pos hF hK), Py.ok_bind, pyDiv_ok hσ]
  congr 2
  field_simp

/-- C98 fails: the delta of the binary log-normal model is the documented `φ(d - σ √τ) / (σ √τ)` only for a forward of
1; its gamma is missing. -/
theorem C98_binary_log_normal_violated (ht : 0 < t) (hσ : σ ≠ 0) (hF : 0 < F) (hK : 0 < K) :
    ((binaryLogNormalFormula codeDist).delta (.ok t) K F σ =
      .ok (some (normalPdf (docLogD t K F σ - σ * Real.sqrt t) / (σ * Real.sqrt t))) ↔ F = 1) ∧
    (binaryLogNormalFormula codeDist).gamma (.ok t) K F σ = .ok none := by
  refine ⟨?_, rfl⟩
  have hv := vol_ne ht hσ
  have hp := normalPdf_pos (docLogD t K F σ - σ * Real.sqrt t)
  simp only [binaryLogNormalFormula, logNormalD_ok ht hσ (div_pos hF hK), Py.ok_bind,
    pyDiv_ok (mul_ne_zero hv hF.ne'), Except.ok.injEq, Option.some.injEq, codeDist]
  rw [div_eq_div_iff (mul_ne_zero hv hF.ne') hv]
  constructor
  · intro h
    have : normalPdf (docLogD t K F σ - σ * Real.sqrt t) * (σ * Real.sqrt t) * (F - 1) = 0 := by linarith
    have := (mul_eq_zero.1 this).resolve_left (mul_ne_zero hp.ne' hv)
    linarith
  · rintro rfl; ring

/-- C98: the intrinsic model as documented; also the binary one away from the strike. -/
theorem C98_intrinsic_partial (time : Py ℝ) (K F σ : ℝ) :
    intrinsicFormula.price time K F σ = .ok (max (F - K) 0) ∧
    intrinsicFormula.delta time K F σ = .ok (some (if F < K then 0 else 1)) ∧
    intrinsicFormula.gamma time K F σ = .ok (some 0) ∧ intrinsicFormula.vega time K F σ = .ok (some 0) ∧
    (F ≠ K → binaryIntrinsicFormula.price time K F σ = .ok (if F < K then 0 else 1)) ∧
    binaryIntrinsicFormula.delta time K F σ = .ok (some 0) ∧
    binaryIntrinsicFormula.gamma time K F σ = .ok (some 0) ∧
    binaryIntrinsicFormula.vega time K F σ = .ok (some 0) := by
  refine ⟨rfl, rfl, rfl, rfl, fun h => ?_, rfl, rfl, rfl⟩
  simp only [binaryIntrinsicFormula]
  rcases lt_or_gt_of_ne h with h | h
  · simp [h, h.le]
  · simp [h.not_gt, h.not_ge]

/-- C98 fails: at the strike the binary intrinsic price is 0, documented is 1. -/
theorem C98_binary_intrinsic_violated (time : Py ℝ) (K σ : ℝ) :
    binaryIntrinsicFormula.price time K K σ = .ok 0 ∧ (if K < K then (0 : ℝ) else 1) = 1 := by
  simp [binaryIntrinsicFormula]

end

/-! ### The hypotheses can be met: each theorem applied -/

/-- The documented formulas at one year, strike two, forward three and twenty percent volatility. -/
example := C68_price (K := 2) (F := -1 / 2) codeDist (one_pos : (0 : ℝ) < 1) (σ := 1 / 5) (by norm_num) (a := 1) (by norm_num) (by norm_num)
example := C68_negative (K := 2) (F := -3) codeDist (one_pos : (0 : ℝ) < 1) (by norm_num) (by norm_num) (1 / 5)
example := C68_delta (K := 2) (F := -1 / 2) (one_pos : (0 : ℝ) < 1) (σ := 1 / 5) (by norm_num) (a := 1) (by norm_num) (by norm_num)
example := C98_normal codeDist (two_pos : (0 : ℝ) < 2) (σ := 1 / 5) (by norm_num) 2 3
example := C98_binary_normal_partial codeDist (two_pos : (0 : ℝ) < 2) (σ := 1 / 5) (by norm_num) 2 3
example : (binaryNormalFormula codeDist).gamma (.ok 2) 2 3 (1 / 5) ≠
    .ok (some (docD 2 2 3 (1 / 5) * normalPdf (docD 2 2 3 (1 / 5)) / ((1 / 5) ^ 2 * 2))) :=
  fun h => by simpa using (C98_binary_normal_gamma_violated (two_pos : (0 : ℝ) < 2) (by norm_num) 2 3).1 h
example := C98_log_normal_partial codeDist (K := 2) (F := 3) (two_pos : (0 : ℝ) < 2) (σ := 1 / 5) (by norm_num) (by norm_num) (by norm_num)
example : (logNormalFormula codeDist).vega (.ok 2) 2 3 (1 / 5) ≠ .ok (some (3 * Real.sqrt 2 * normalPdf (docLogD 2 2 3 (1 / 5)))) :=
  fun h => by simpa using (C98_log_normal_violated (two_pos : (0 : ℝ) < 2) (by norm_num) (by norm_num) (by norm_num)).1.1 h
example := C98_binary_log_normal_partial codeDist (K := 2) (F := 3) (two_pos : (0 : ℝ) < 2) (σ := 1 / 5) (by norm_num) (by norm_num) (by norm_num)
example : (binaryLogNormalFormula codeDist).delta (.ok 2) 2 3 (1 / 5) ≠
    .ok (some (normalPdf (docLogD 2 2 3 (1 / 5) - 1 / 5 * Real.sqrt 2) / (1 / 5 * Real.sqrt 2))) :=
  fun h => by simpa using (C98_binary_log_normal_violated (two_pos : (0 : ℝ) < 2) (by norm_num) (by norm_num) (by norm_num)).1.1 h

end Dcf
