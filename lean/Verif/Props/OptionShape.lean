import Mathlib.Analysis.Convex.Deriv
import Verif.Props.OptionModel
import Verif.Props.CdfAccuracy
import Verif.Props.NormalCdf

/-! # Shape and symmetries of option prices: C124, C125, and the exact threshold of C70 -/

set_option linter.unusedSectionVars false
set_option linter.unusedSimpArgs false
set_option linter.unusedVariables false

namespace Dcf

open Spec Filter Topology

/-! ## C124: symmetries -/

/-- C124: in the normal model only the difference of forward and strike matters, for prices and all sensitivities, whatever
the distribution function. -/
theorem C124_normal_shift (N : NormalDist) (time : Py ℝ) (K F σ a : ℝ) :
    (normalFormula N).price time (K + a) (F + a) σ = (normalFormula N).price time K F σ ∧
    (normalFormula N).delta time (K + a) (F + a) σ = (normalFormula N).delta time K F σ ∧
    (normalFormula N).gamma time (K + a) (F + a) σ = (normalFormula N).gamma time K F σ ∧
    (normalFormula N).vega time (K + a) (F + a) σ = (normalFormula N).vega time K F σ := by
  simp only [normalFormula, normalD, add_sub_add_right_eq_sub, and_self]

/-- C124: prices in the normal model scale with forward, strike and volatility together (a change of currency). -/
theorem C124_normal_scale (N : NormalDist) (time : Py ℝ) (K F σ : ℝ) {c : ℝ} (hc : c ≠ 0) :
    (normalFormula N).price time (c * K) (c * F) (c * σ) = (fun p => c * p) <$> (normalFormula N).price time K F σ := by
  simp only [normalFormula, normalD, volOfTime]
  cases time with
  | error e => simp
  | ok t =>
    simp only [Py.ok_bind]
    cases hs : pySqrt t with
    | error e => simp
    | ok s =>
      simp only [Py.ok_bind]
      by_cases hv : σ * s = 0
      · have : c * σ * s = 0 := by rw [mul_assoc, hv, mul_zero]
        simp [hv, this]
      · have hv' : c * σ * s ≠ 0 := by rw [mul_assoc]; exact mul_ne_zero hc hv
        rw [pyDiv_ok hv, pyDiv_ok hv']
        have e : (c * F - c * K) / (c * σ * s) = (F - K) / (σ * s) := by
          rw [← mul_sub, mul_assoc, mul_div_mul_left _ _ hc]
        simp only [Py.ok_bind, e, Py.map_ok]
        congr 1; ring

/-- C124: prices in the log-normal model scale with forward and strike together, the volatility being a relative one. -/
theorem C124_log_normal_scale (N : NormalDist) (time : Py ℝ) (K F σ : ℝ) {c : ℝ} (hc : c ≠ 0) :
    (logNormalFormula N).price time (c * K) (c * F) σ = (fun p => c * p) <$> (logNormalFormula N).price time K F σ := by
  have e : pyDiv (c * F) (c * K) = pyDiv F K := by
    by_cases hK : K = 0
    · simp [hK]
    · rw [pyDiv_ok hK, pyDiv_ok (mul_ne_zero hc hK), mul_div_mul_left _ _ hc]
  simp only [logNormalFormula, logNormalD, e]
  cases volOfTime time σ with
  | error e => simp
  | ok v =>
    simp only [Py.ok_bind]
    cases pyDiv F K with
    | error e => simp
    | ok x =>
      simp only [Py.ok_bind]
      cases pyLog x with
      | error e => simp
      | ok l =>
        simp only [Py.ok_bind]
        cases pyDiv (l + v ^ 2 / 2) v with
        | error e => simp
        | ok d => simp only [Py.ok_bind, Py.map_ok]; congr 1; ring

/-- C124: volatility and time matter only as the volatility times the square root of the time, in all four closed
formulas. -/
theorem C124_total_vol (N : NormalDist) {t : ℝ} (ht : 0 ≤ t) (K F σ : ℝ) :
    (normalFormula N).price (.ok t) K F σ = (normalFormula N).price (.ok 1) K F (σ * Real.sqrt t) ∧
    (binaryNormalFormula N).price (.ok t) K F σ = (binaryNormalFormula N).price (.ok 1) K F (σ * Real.sqrt t) ∧
    (logNormalFormula N).price (.ok t) K F σ = (logNormalFormula N).price (.ok 1) K F (σ * Real.sqrt t) ∧
    (binaryLogNormalFormula N).price (.ok t) K F σ =
      (binaryLogNormalFormula N).price (.ok 1) K F (σ * Real.sqrt t) := by
  have e : volOfTime (.ok t) σ = volOfTime (.ok 1) (σ * Real.sqrt t) := by
    simp [volOfTime, pySqrt_ok ht, pySqrt_ok (zero_le_one (α := ℝ))]
  simp only [normalFormula, binaryNormalFormula, logNormalFormula, binaryLogNormalFormula, normalD, logNormalD, e, and_self]

section
variable {t K F σ : ℝ}

/-- The swap in the normal model holds for any distribution that is symmetric away from 0. -/
theorem normal_swap (N : NormalDist) (hN : ∀ x, x ≠ 0 → N.cdf x + N.cdf (-x) = 1) (hp : ∀ x, N.pdf (-x) = N.pdf x)
    (ht : 0 < t) (hσ : σ ≠ 0) (K F : ℝ) {p : ℝ} (h : (normalFormula N).price (.ok t) K F σ = .ok p) :
    (normalFormula N).price (.ok t) F K σ = .ok (K - F + p) := by
  rw [normal_price N ht hσ] at h ⊢
  rw [← Except.ok.inj h]
  have e : docD t F K σ = -docD t K F σ := by unfold docD; rw [← neg_div, neg_sub]
  rw [e, hp]
  congr 1
  by_cases h0 : F = K
  · subst h0; ring
  · have : docD t K F σ ≠ 0 := div_ne_zero (sub_ne_zero.2 h0) (vol_ne ht hσ)
    linear_combination (K - F) * hN _ this

theorem logNormal_swap (N : NormalDist) (ht : 0 < t) (hσ : σ ≠ 0) (hF : 0 < F) (hK : 0 < K)
    (h1 : N.cdf (docLogD t K F σ) + N.cdf (-docLogD t K F σ) = 1)
    (h2 : N.cdf (docLogD t K F σ - σ * Real.sqrt t) + N.cdf (-(docLogD t K F σ - σ * Real.sqrt t)) = 1) {p : ℝ}
    (h : (logNormalFormula N).price (.ok t) K F σ = .ok p) :
    (logNormalFormula N).price (.ok t) F K σ = .ok (K - F + p) := by
  rw [logNormal_price N ht hσ (div_pos hF hK)] at h
  rw [logNormal_price N ht hσ (div_pos hK hF)]
  rw [← Except.ok.inj h, docLogD_swap ht hσ hF hK]
  have e : -(docLogD t K F σ - σ * Real.sqrt t) - σ * Real.sqrt t = -docLogD t K F σ := by ring
  rw [e]
  congr 1
  linear_combination -F * h1 + K * h2

variable {D P : Type} {cal : Cal D P} {m m' : OptModel D} {v v' date date' : D}

/-- C124: a put is a call with forward and strike exchanged: the right to sell one asset for another is the right to buy
the other for the one.  In the normal model, with the code's own distribution function, without exception. -/
theorem C124_swap_normal (hm : m.formula = normalFormula codeDist) (hm' : m'.formula = normalFormula codeDist)
    (hv : m.valuation = some v) (hv' : m'.valuation = some v') (hF : ForwardOf date m.forward F)
    (hK : ForwardOf date' m'.forward K) (hσ : VolOf date m.vol σ) (hσ' : VolOf date' m'.vol σ)
    (ht : TimeOf cal m v date t) (ht' : TimeOf cal m' v' date' t) (h0 : σ ≠ 0) (ht0 : 0 < t) :
    ∃ p, m.putValue cal date (some K) = .ok p ∧ m'.callValue cal date' (some F) = .ok p := by
  have hp := normal_price codeDist ht0 h0 K F
  have hs := normal_swap codeDist (fun x hx => C70_symmetric hx) (fun x => by simp [codeDist, normalPdf]) ht0 h0 K F hp
  obtain ⟨d, h1, h2, h3, h4, h5⟩ := details_read hv hF hσ ht (some K)
  simp only [Option.getD_some] at h3
  refine ⟨_, ?_, (C123_call hv' hK hσ' ht' h0 ht0.ne' F).1.trans (hm' ▸ hs)⟩
  simp [OptModel.putValue, h1, OptDetails.fwd, h2, h3, h4, h5, OptDetails.flat, h0, ht0.ne', hm, hp]

/-- C124, log-normal model, partial: a put is a call with forward and strike exchanged unless one of the two arguments of
the distribution function is exactly 0.  Full claim: always.  Missing: false at 0, see below. -/
theorem C124_swap_log_normal_partial (hm : m.formula = logNormalFormula codeDist)
    (hm' : m'.formula = logNormalFormula codeDist) (hv : m.valuation = some v) (hv' : m'.valuation = some v')
    (hF : ForwardOf date m.forward F) (hK : ForwardOf date' m'.forward K) (hσ : VolOf date m.vol σ)
    (hσ' : VolOf date' m'.vol σ) (ht : TimeOf cal m v date t) (ht' : TimeOf cal m' v' date' t) (h0 : σ ≠ 0) (ht0 : 0 < t)
    (hF0 : 0 < F) (hK0 : 0 < K) (hd : Real.log (F / K) ≠ -(σ ^ 2 * t / 2)) (hd' : Real.log (F / K) ≠ σ ^ 2 * t / 2) :
    ∃ p, m.putValue cal date (some K) = .ok p ∧ m'.callValue cal date' (some F) = .ok p := by
  have hvne := vol_ne ht0 h0
  have hd1 : docLogD t K F σ ≠ 0 := by
    refine div_ne_zero (fun h => hd ?_) hvne
    linarith
  have hd2 : docLogD t K F σ - σ * Real.sqrt t ≠ 0 := by
    intro h
    unfold docLogD at h
    rw [sub_eq_zero, div_eq_iff hvne] at h
    have : σ * Real.sqrt t * (σ * Real.sqrt t) = σ ^ 2 * t := by
      rw [mul_mul_mul_comm, Real.mul_self_sqrt ht0.le]; ring
    rw [this] at h
    exact hd' (by linarith)
  have hp := logNormal_price codeDist ht0 h0 (div_pos hF0 hK0)
  have hs := logNormal_swap codeDist ht0 h0 hF0 hK0 (C70_symmetric hd1) (C70_symmetric hd2) hp
  obtain ⟨d, h1, h2, h3, h4, h5⟩ := details_read hv hF hσ ht (some K)
  simp only [Option.getD_some] at h3
  refine ⟨_, ?_, (C123_call hv' hK hσ' ht' h0 ht0.ne' F).1.trans (hm' ▸ hs)⟩
  simp [OptModel.putValue, h1, OptDetails.fwd, h2, h3, h4, h5, OptDetails.flat, h0, ht0.ne', hm, hp]

/-- C124 fails in the log-normal model where the second argument of the distribution function is 0: the prices differ by
the strike times twice the error of the distribution function at 0. -/
theorem C124_swap_log_normal_violated (ht : 0 < t) (hσ : 0 < σ) (hK : 0 < K) (hF : F = K * Real.exp (σ ^ 2 * t / 2)) :
    ∃ p q, (logNormalFormula codeDist).price (.ok t) K F σ = .ok p ∧
      (logNormalFormula codeDist).price (.ok t) F K σ = .ok q ∧ 0 < q - (K - F + p) ∧ q - (K - F + p) < 2e-9 * K := by
  have hF0 : 0 < F := by rw [hF]; positivity
  have hv := vol_ne ht hσ.ne'
  have hd2 : docLogD t K F σ - σ * Real.sqrt t = 0 := by
    unfold docLogD
    rw [sub_eq_zero, div_eq_iff hv, hF, mul_div_cancel_left₀ _ hK.ne', Real.log_exp, mul_mul_mul_comm,
      Real.mul_self_sqrt ht.le]
    ring
  have hvpos : 0 < σ * Real.sqrt t := mul_pos hσ (Real.sqrt_pos.2 ht)
  have hd1 : docLogD t K F σ = σ * Real.sqrt t := by linarith
  refine ⟨_, _, logNormal_price codeDist ht hσ.ne' (div_pos hF0 hK), logNormal_price codeDist ht hσ.ne' (div_pos hK hF0), ?_⟩
  rw [docLogD_swap ht hσ.ne' hF0 hK, hd2, hd1, neg_zero, zero_sub]
  simp only [codeDist]
  have hs := C70_symmetric hvpos.ne'
  have h0 := C70_zero
  have e : K * normalCdf 0 - F * normalCdf (-(σ * Real.sqrt t)) - (K - F + (F * normalCdf (σ * Real.sqrt t) - K * normalCdf 0)) =
      K * (2 * normalCdf 0 - 1) := by linear_combination -F * hs
  rw [e]
  exact ⟨mul_pos hK (by linarith [h0.1]), by nlinarith [h0.2.1]⟩

/-! ## C125: strikes, forwards and times -/

/-- The exact log-normal price as a function of the forward is strictly convex. -/
theorem logNormal_convex (ht : 0 < t) (hσ : 0 < σ) (hK : 0 < K) : StrictConvexOn ℝ (Set.Ioi 0)
    fun F => F * gaussCdf (docLogD t K F σ) - K * gaussCdf (docLogD t K F σ - σ * Real.sqrt t) := by
  refine StrictMonoOn.strictConvexOn_of_deriv (convex_Ioi 0)
    (fun y hy => (logNormal_price_deriv ht hσ.ne' hy hK).continuousAt.continuousWithinAt) ?_
  rw [interior_Ioi]
  intro x hx y hy hxy
  rw [(logNormal_price_deriv ht hσ.ne' hx hK).deriv, (logNormal_price_deriv ht hσ.ne' hy hK).deriv]
  refine gaussCdf_strictMono ?_
  have hv : 0 < σ * Real.sqrt t := mul_pos hσ (Real.sqrt_pos.2 ht)
  have hx' : 0 < x := hx
  unfold docLogD
  have := Real.log_lt_log (div_pos hx' hK) (div_lt_div_of_pos_right hxy hK)
  exact div_lt_div_of_pos_right (by linarith) hv

theorem normal_convex (ht : 0 < t) (hσ : 0 < σ) (K : ℝ) : StrictConvexOn ℝ Set.univ
    fun F => (F - K) * gaussCdf (docD t K F σ) + σ * Real.sqrt t * gaussPdf (docD t K F σ) := by
  refine StrictMonoOn.strictConvexOn_of_deriv convex_univ
    (fun y hy => (normal_price_deriv ht hσ.ne' K y).continuousAt.continuousWithinAt) ?_
  rw [interior_univ]
  intro x _ y _ hxy
  rw [(normal_price_deriv ht hσ.ne' K x).deriv, (normal_price_deriv ht hσ.ne' K y).deriv]
  refine gaussCdf_strictMono ?_
  have hv : 0 < σ * Real.sqrt t := mul_pos hσ (Real.sqrt_pos.2 ht)
  exact div_lt_div_of_pos_right (by linarith) hv

/-- The strike side of the exact log-normal price, by the swap. -/
theorem logNormal_strike (ht : 0 < t) (hσ : 0 < σ) (hF : 0 < F) (hK : 0 < K) :
    (logNormalFormula exactDist).price (.ok t) K F σ = .ok (F - K +
      (K * gaussCdf (docLogD t F K σ) - F * gaussCdf (docLogD t F K σ - σ * Real.sqrt t))) := by
  have hsym : ∀ x, gaussCdf x + gaussCdf (-x) = 1 := fun x => by rw [gaussCdf_neg]; ring
  have := logNormal_swap exactDist ht hσ.ne' hK hF (hsym _) (hsym _) (logNormal_price exactDist ht hσ.ne' (div_pos hK hF))
  exact this

/-- C125: with the exact distribution, a call spread in the log-normal model is worth more than nothing and less than its
width, and a butterfly is worth something. -/
theorem C125_log_normal_strike (ht : 0 < t) (hσ : 0 < σ) (hF : 0 < F) {K₁ K₂ w : ℝ} (hK : 0 < K₁) (h : K₁ < K₂)
    (hw : 0 < w) (hw' : w < 1) : ∃ p₁ p₂ p, (logNormalFormula exactDist).price (.ok t) K₁ F σ = .ok p₁ ∧
      (logNormalFormula exactDist).price (.ok t) K₂ F σ = .ok p₂ ∧
      (logNormalFormula exactDist).price (.ok t) (w * K₁ + (1 - w) * K₂) F σ = .ok p ∧
      0 < p₁ - p₂ ∧ p₁ - p₂ < K₂ - K₁ ∧ p < w * p₁ + (1 - w) * p₂ := by
  have hK2 := hK.trans h
  have hKw : 0 < w * K₁ + (1 - w) * K₂ := by have : 0 < 1 - w := by linarith
                                             positivity
  refine ⟨_, _, _, logNormal_strike ht hσ hF hK, logNormal_strike ht hσ hF hK2, logNormal_strike ht hσ hF hKw, ?_⟩
  set g := fun K => K * gaussCdf (docLogD t F K σ) - F * gaussCdf (docLogD t F K σ - σ * Real.sqrt t) with hg
  obtain ⟨c, h1, h2, h3⟩ := mean_value (f := g) (f' := fun K => gaussCdf (docLogD t F K σ)) h fun x hx hx' =>
    logNormal_price_deriv ht hσ.ne' (hK.trans_le hx) hF
  have hc := gaussCdf_pos (docLogD t F c σ)
  have hc' := gaussCdf_lt_one (docLogD t F c σ)
  have hcv := (logNormal_convex (t := t) (σ := σ) (K := F) ht hσ hF).2 hK hK2 h.ne hw (show 0 < 1 - w by linarith) (by ring)
  simp only [smul_eq_mul] at hcv
  refine ⟨?_, ?_, ?_⟩
  · show 0 < F - K₁ + g K₁ - (F - K₂ + g K₂)
    nlinarith
  · show F - K₁ + g K₁ - (F - K₂ + g K₂) < K₂ - K₁
    nlinarith
  · show F - (w * K₁ + (1 - w) * K₂) + g (w * K₁ + (1 - w) * K₂) < w * (F - K₁ + g K₁) + (1 - w) * (F - K₂ + g K₂)
    have : g (w * K₁ + (1 - w) * K₂) < w * g K₁ + (1 - w) * g K₂ := hcv
    linarith

/-- C125: in the forward the exact log-normal price rises by less than the forward and is convex. -/
theorem C125_log_normal_forward (ht : 0 < t) (hσ : 0 < σ) (hK : 0 < K) {F₁ F₂ w : ℝ} (hF : 0 < F₁) (h : F₁ < F₂)
    (hw : 0 < w) (hw' : w < 1) : ∃ p₁ p₂ p, (logNormalFormula exactDist).price (.ok t) K F₁ σ = .ok p₁ ∧
      (logNormalFormula exactDist).price (.ok t) K F₂ σ = .ok p₂ ∧
      (logNormalFormula exactDist).price (.ok t) K (w * F₁ + (1 - w) * F₂) σ = .ok p ∧
      0 < p₂ - p₁ ∧ p₂ - p₁ < F₂ - F₁ ∧ p < w * p₁ + (1 - w) * p₂ := by
  have hF2 := hF.trans h
  have hFw : 0 < w * F₁ + (1 - w) * F₂ := by have : 0 < 1 - w := by linarith
                                             positivity
  refine ⟨_, _, _, logNormal_price exactDist ht hσ.ne' (div_pos hF hK), logNormal_price exactDist ht hσ.ne' (div_pos hF2 hK),
    logNormal_price exactDist ht hσ.ne' (div_pos hFw hK), ?_⟩
  set g := fun F => F * gaussCdf (docLogD t K F σ) - K * gaussCdf (docLogD t K F σ - σ * Real.sqrt t) with hg
  obtain ⟨c, h1, h2, h3⟩ := mean_value (f := g) (f' := fun F => gaussCdf (docLogD t K F σ)) h fun x hx hx' =>
    logNormal_price_deriv ht hσ.ne' (hF.trans_le hx) hK
  have hc := gaussCdf_pos (docLogD t K c σ)
  have hc' := gaussCdf_lt_one (docLogD t K c σ)
  have hcv := (logNormal_convex (t := t) (σ := σ) (K := K) ht hσ hK).2 hF hF2 h.ne hw (show 0 < 1 - w by linarith) (by ring)
  simp only [smul_eq_mul] at hcv
  refine ⟨?_, ?_, hcv⟩
  · show 0 < g F₂ - g F₁
    nlinarith
  · show g F₂ - g F₁ < F₂ - F₁
    nlinarith

/-- C125: the same in the normal model, for the forward and (by the shift) for the strike; strikes and forwards of any
sign. -/
theorem C125_normal (ht : 0 < t) (hσ : 0 < σ) (K : ℝ) {F₁ F₂ w : ℝ} (h : F₁ < F₂)
    (hw : 0 < w) (hw' : w < 1) : ∃ p₁ p₂ p, (normalFormula exactDist).price (.ok t) K F₁ σ = .ok p₁ ∧
      (normalFormula exactDist).price (.ok t) K F₂ σ = .ok p₂ ∧
      (normalFormula exactDist).price (.ok t) K (w * F₁ + (1 - w) * F₂) σ = .ok p ∧
      0 < p₂ - p₁ ∧ p₂ - p₁ < F₂ - F₁ ∧ p < w * p₁ + (1 - w) * p₂ := by
  refine ⟨_, _, _, normal_price exactDist ht hσ.ne' K _, normal_price exactDist ht hσ.ne' K _,
    normal_price exactDist ht hσ.ne' K _, ?_⟩
  set g := fun F => (F - K) * gaussCdf (docD t K F σ) + σ * Real.sqrt t * gaussPdf (docD t K F σ) with hg
  obtain ⟨c, h1, h2, h3⟩ := mean_value (f := g) (f' := fun F => gaussCdf (docD t K F σ)) h fun x hx hx' =>
    normal_price_deriv ht hσ.ne' K x
  have hc := gaussCdf_pos (docD t K c σ)
  have hc' := gaussCdf_lt_one (docD t K c σ)
  have hcv := (normal_convex (t := t) (σ := σ) ht hσ K).2 (Set.mem_univ F₁) (Set.mem_univ F₂) h.ne hw
    (show 0 < 1 - w by linarith) (by ring)
  simp only [smul_eq_mul] at hcv
  refine ⟨?_, ?_, hcv⟩
  · show 0 < g F₂ - g F₁
    nlinarith
  · show g F₂ - g F₁ < F₂ - F₁
    nlinarith

theorem C125_normal_strike (ht : 0 < t) (hσ : 0 < σ) (F : ℝ) {K₁ K₂ w : ℝ} (h : K₁ < K₂)
    (hw : 0 < w) (hw' : w < 1) : ∃ p₁ p₂ p, (normalFormula exactDist).price (.ok t) K₁ F σ = .ok p₁ ∧
      (normalFormula exactDist).price (.ok t) K₂ F σ = .ok p₂ ∧
      (normalFormula exactDist).price (.ok t) (w * K₁ + (1 - w) * K₂) F σ = .ok p ∧
      0 < p₁ - p₂ ∧ p₁ - p₂ < K₂ - K₁ ∧ p < w * p₁ + (1 - w) * p₂ := by
  obtain ⟨p₂, p₁, p, h2, h1, h3, h4, h5, h6⟩ := C125_normal ht hσ 0 (F₁ := F - K₂) (F₂ := F - K₁) (w := 1 - w)
    (by linarith) (by linarith) (by linarith)
  have sh : ∀ K, (normalFormula exactDist).price (.ok t) K F σ = (normalFormula exactDist).price (.ok t) 0 (F - K) σ := by
    intro K
    have := (C124_normal_shift exactDist (.ok t) 0 (F - K) σ K).1
    rwa [zero_add, sub_add_cancel] at this
  refine ⟨p₁, p₂, p, by rw [sh, h1], by rw [sh, h2], ?_, h4, by linarith, by linarith⟩
  rw [sh, ← h3]
  congr 1
  ring

/-- C125: with the exact distribution prices in the normal model rise with the volatility, as in the log-normal one
(`C102_vol`). -/
theorem C125_normal_vol (ht : 0 < t) {σ' : ℝ} (hσ : 0 < σ) (h : σ < σ') (K F : ℝ) :
    ∃ p p', (normalFormula exactDist).price (.ok t) K F σ = .ok p ∧
      (normalFormula exactDist).price (.ok t) K F σ' = .ok p' ∧ p < p' := by
  refine ⟨_, _, normal_price exactDist ht hσ.ne' K F, normal_price exactDist ht (hσ.trans h).ne' K F, ?_⟩
  obtain ⟨c, h1, h2, h3⟩ := mean_value
    (f := fun σ => (F - K) * gaussCdf (docD t K F σ) + σ * Real.sqrt t * gaussPdf (docD t K F σ))
    (f' := fun σ => Real.sqrt t * gaussPdf (docD t K F σ)) h fun x hx hx' => by
      have hx0 : x ≠ 0 := (hσ.trans_le hx).ne'
      have h1 := (gaussCdf_deriv (docD t K F x)).comp x (docD_deriv_vol ht hx0 K F)
      have h2 := (gaussPdf_deriv (docD t K F x)).comp x (docD_deriv_vol ht hx0 K F)
      have h := (h1.const_mul (F - K)).add (((hasDerivAt_id x).mul_const (Real.sqrt t)).mul h2)
      refine h.congr_deriv ?_
      have hv := vol_ne ht hx0
      have hd : F - K = docD t K F x * (x * Real.sqrt t) := by unfold docD; field_simp
      simp only [Function.comp_apply, id]
      rw [hd]
      field_simp
      ring
  have := mul_pos (mul_pos (Real.sqrt_pos.2 ht) (gaussPdf_pos (docD t K F c))) (sub_pos.2 h)
  simp only [exactDist]
  linarith

/-- C125: options of longer time are worth more: a calendar spread has a positive value. -/
theorem C125_time {t' : ℝ} (ht : 0 < t) (h : t < t') (hσ : 0 < σ) :
    (∀ K F, ∃ p p', (normalFormula exactDist).price (.ok t) K F σ = .ok p ∧
      (normalFormula exactDist).price (.ok t') K F σ = .ok p' ∧ p < p') ∧
    (∀ K F, 0 < K → 0 < F → ∃ p p', (logNormalFormula exactDist).price (.ok t) K F σ = .ok p ∧
      (logNormalFormula exactDist).price (.ok t') K F σ = .ok p' ∧ p < p') := by
  have hv : 0 < σ * Real.sqrt t := mul_pos hσ (Real.sqrt_pos.2 ht)
  have hv' : σ * Real.sqrt t < σ * Real.sqrt t' := mul_lt_mul_of_pos_left (Real.sqrt_lt_sqrt ht.le h) hσ
  constructor
  · intro K F
    rw [(C124_total_vol exactDist ht.le K F σ).1, (C124_total_vol exactDist (ht.trans h).le K F σ).1]
    exact C125_normal_vol one_pos hv hv' K F
  · intro K F hK hF
    rw [(C124_total_vol exactDist ht.le K F σ).2.2.1, (C124_total_vol exactDist (ht.trans h).le K F σ).2.2.1]
    exact C102_vol one_pos hv hv' hF hK

end

/-! ## The approximated distribution function -/

/-- The polynomial of `cdfPoly_times` falls everywhere. -/
theorem tailPoly_strictAnti : StrictAnti fun r : ℝ =>
    (1 - r) * (0.31938153 - 0.356563782 * r + 1.781477937 * r ^ 2 - 1.821255978 * r ^ 3 + 1.330274429 * r ^ 4) := by
  refine strictAnti_of_deriv_neg fun r => ?_
  have hd : HasDerivAt (fun r : ℝ =>
      (1 - r) * (0.31938153 - 0.356563782 * r + 1.781477937 * r ^ 2 - 1.821255978 * r ^ 3 + 1.330274429 * r ^ 4))
      (-(0.31938153 - 0.356563782 * r + 1.781477937 * r ^ 2 - 1.821255978 * r ^ 3 + 1.330274429 * r ^ 4) +
        (1 - r) * (-0.356563782 + 1.781477937 * (2 * r) - 1.821255978 * (3 * r ^ 2) + 1.330274429 * (4 * r ^ 3))) r := by
    have h1 : HasDerivAt (fun r : ℝ => 1 - r) (-1) r := by simpa using (hasDerivAt_id r).const_sub 1
    have h2 := ((((hasDerivAt_id r).const_mul 0.356563782).const_sub 0.31938153).add
      ((hasDerivAt_pow 2 r).const_mul 1.781477937)).sub ((hasDerivAt_pow 3 r).const_mul 1.821255978) |>.add
      ((hasDerivAt_pow 4 r).const_mul 1.330274429)
    refine (h1.mul h2).congr_deriv ?_
    simp only [id]
    norm_num
  rw [hd.deriv]
  nlinarith [sq_nonneg (r ^ 2 - 0.9478 * r + 0.25), sq_nonneg (r - 0.3726)]

theorem times_strictMono {x y : ℝ} (hx : 0 ≤ x) (h : x < y) :
    x * cdfPoly (1 / (1 + 0.2316419 * x)) < y * cdfPoly (1 / (1 + 0.2316419 * y)) := by
  obtain ⟨r, hr, he⟩ := cdfPoly_times hx
  obtain ⟨s, hs, he'⟩ := cdfPoly_times (hx.trans h.le)
  rw [← hr, ← hs]
  have hsr : s < r := by
    rw [hr, hs]
    exact one_div_lt_one_div_of_lt (by positivity) (by linarith)
  have := tailPoly_strictAnti hsr
  simp only at this
  nlinarith

theorem times_continuous : ContinuousOn (fun x : ℝ => x * cdfPoly (1 / (1 + 0.2316419 * x))) (Set.Icc 8 9) := by
  have h1 : ContinuousOn (fun x : ℝ => 1 / (1 + 0.2316419 * x)) (Set.Icc 8 9) := by
    refine continuousOn_const.div (by fun_prop) fun x hx => ?_
    have := hx.1
    positivity
  have h2 : Continuous cdfPoly := by unfold cdfPoly; fun_prop
  exact continuousOn_id.mul (h2.comp_continuousOn h1)

section
variable {t K F σ : ℝ}

/-- C70, prices, exact: there is one number between 8 and 9 such that a call in the normal model has a positive value
exactly if it is less than that many standard deviations out of the money, no value exactly there, and a negative value
beyond. -/
theorem C70_threshold : ∃ c : ℝ, 8 < c ∧ c < 9 ∧ ∀ t σ K F : ℝ, 0 < t → 0 < σ →
    ∃ p, (normalFormula codeDist).price (.ok t) K F σ = .ok p ∧ (0 < p ↔ -c * (σ * Real.sqrt t) < F - K) ∧
      (p < 0 ↔ F - K < -c * (σ * Real.sqrt t)) := by
  obtain ⟨c, hc, he⟩ := intermediate_value_Icc (by norm_num : (8 : ℝ) ≤ 9) times_continuous
    ⟨(times_lt (x := 8) (by norm_num) le_rfl).le, (times_gt (x := 9) le_rfl).le⟩
  simp only at he
  have h8 : 8 < c := lt_of_le_of_ne hc.1 fun h => by
    have := times_lt (x := c) (by linarith [hc.1]) h.symm.le
    linarith
  have h9 : c < 9 := lt_of_le_of_ne hc.2 fun h => by
    have := times_gt (x := c) h.symm.le
    linarith
  refine ⟨c, h8, h9, fun t σ K F ht hσ => ⟨_, normal_price_code ht hσ K F, ?_⟩⟩
  have hv : 0 < σ * Real.sqrt t := mul_pos hσ (Real.sqrt_pos.2 ht)
  set d := docD t K F σ with hd
  have hFK : F - K = d * (σ * Real.sqrt t) := by rw [hd]; unfold docD; field_simp
  rw [hFK, mul_lt_mul_iff_left₀ hv, mul_lt_mul_iff_left₀ hv, mul_pos_iff_of_pos_left hv]
  have hneg : σ * Real.sqrt t * (d * normalCdf d + normalPdf d) < 0 ↔ d * normalCdf d + normalPdf d < 0 := by
    constructor
    · intro h; by_contra h'; push Not at h'; linarith [mul_nonneg hv.le h']
    · intro h; exact mul_neg_of_pos_of_neg hv h
  rw [hneg]
  have hp := normalPdf_pos d
  rcases lt_or_ge d 0 with hn | hn
  · have hpe : normalPdf (-d) = normalPdf d := by simp [normalPdf]
    have e : d * normalCdf d + normalPdf d = normalPdf d * (1 - -d * cdfPoly (1 / (1 + 0.2316419 * -d))) := by
      rw [normalCdf_neg hn, cdfTail_pdf, hpe]; ring
    rw [e, mul_pos_iff_of_pos_left hp]
    have hneg' : normalPdf d * (1 - -d * cdfPoly (1 / (1 + 0.2316419 * -d))) < 0 ↔
        1 - -d * cdfPoly (1 / (1 + 0.2316419 * -d)) < 0 := by
      constructor
      · intro h; by_contra h'; push Not at h'; linarith [mul_nonneg hp.le h']
      · intro h; exact mul_neg_of_pos_of_neg hp h
    rw [hneg']
    rcases lt_trichotomy (-d) c with h | h | h
    · have := times_strictMono (x := -d) (by linarith) h
      exact ⟨⟨fun _ => by linarith, fun _ => by linarith⟩, ⟨fun _ => by linarith, fun _ => by linarith⟩⟩
    · rw [h]
      exact ⟨⟨fun _ => by linarith, fun _ => by linarith⟩, ⟨fun _ => by linarith, fun _ => by linarith⟩⟩
    · have := times_strictMono (x := c) (by linarith) h
      exact ⟨⟨fun _ => by linarith, fun _ => by linarith⟩, ⟨fun _ => by linarith, fun _ => by linarith⟩⟩
  · have h1 : 0 < d * normalCdf d + normalPdf d := by
      have := (C70_range d).1
      positivity
    exact ⟨⟨fun _ => by linarith, fun _ => h1⟩, ⟨fun _ => by linarith, fun _ => by linarith⟩⟩

theorem exp_bound : Real.exp (-10.5) < 0.011 := by
  have h1 : (4.5 : ℝ) ≤ Real.exp 3.5 := by have := Real.add_one_le_exp (3.5 : ℝ); linarith
  have h2 : Real.exp 10.5 = Real.exp 3.5 ^ 3 := by rw [← Real.exp_nat_mul]; norm_num
  have h3 : (4.5 : ℝ) ^ 3 ≤ Real.exp 10.5 := by rw [h2]; exact pow_le_pow_left₀ (by norm_num) h1 3
  rw [Real.exp_neg, inv_lt_comm₀ (Real.exp_pos _) (by norm_num)]
  refine lt_of_lt_of_le ?_ h3
  norm_num

/-- C125 fails with the code's distribution function in the normal model: ten standard deviations out of the money the
higher strike is worth more, for all times, volatilities and forwards. -/
theorem C125_normal_violated (ht : 0 < t) (hσ : 0 < σ) (F : ℝ) : ∃ p₁ p₂,
    (normalFormula codeDist).price (.ok t) (F + 10 * (σ * Real.sqrt t)) F σ = .ok p₁ ∧
    (normalFormula codeDist).price (.ok t) (F + 11 * (σ * Real.sqrt t)) F σ = .ok p₂ ∧ p₁ < p₂ := by
  have hv : 0 < σ * Real.sqrt t := mul_pos hσ (Real.sqrt_pos.2 ht)
  refine ⟨_, _, normal_price_code ht hσ _ F, normal_price_code ht hσ _ F, ?_⟩
  have d1 : docD t (F + 10 * (σ * Real.sqrt t)) F σ = -10 := by unfold docD; field_simp; ring
  have d2 : docD t (F + 11 * (σ * Real.sqrt t)) F σ = -11 := by unfold docD; field_simp; ring
  rw [d1, d2]
  refine mul_lt_mul_of_pos_left ?_ hv
  rw [normalCdf_neg (by norm_num), normalCdf_neg (by norm_num), cdfTail_pdf, cdfTail_pdf]
  have e1 : normalPdf (-11) = normalPdf (-10) * Real.exp (-10.5) := by
    unfold normalPdf
    rw [mul_assoc 0.398942280401433 (Real.exp _), ← Real.exp_add]
    norm_num
  have s1 : normalPdf (- -10) = normalPdf (-10) := by simp [normalPdf]
  have s2 : normalPdf (- -11) = normalPdf (-11) := by simp [normalPdf]
  rw [s1, s2, e1]
  have hp := normalPdf_pos (-10)
  have he := exp_bound
  have he0 := Real.exp_pos (-10.5)
  have p1 : (1.009 : ℝ) < 10 * cdfPoly (1 / (1 + 0.2316419 * - -10)) := by unfold cdfPoly; norm_num
  have p2 : 11 * cdfPoly (1 / (1 + 0.2316419 * - -11)) < 1.03 := by unfold cdfPoly; norm_num
  have p3 : (1 : ℝ) < 11 * cdfPoly (1 / (1 + 0.2316419 * - -11)) := by unfold cdfPoly; norm_num
  generalize cdfPoly (1 / (1 + 0.2316419 * - -10)) = a at *
  generalize cdfPoly (1 / (1 + 0.2316419 * - -11)) = b at *
  generalize Real.exp (-10.5) = e at *
  have : 1 - 10 * a < e * (1 - 11 * b) := by nlinarith
  nlinarith

/-- C125 fails with the code's distribution function in the log-normal model, too, for all times, volatilities and
forwards: its jump at 0 makes the price jump up at the strike where the second argument is 0. -/
theorem C125_log_normal_violated (ht : 0 < t) (hσ : 0 < σ) (hF : 0 < F) : ∃ K₁ K₂ p₁ p₂, 0 < K₁ ∧ K₁ < K₂ ∧
    (logNormalFormula codeDist).price (.ok t) K₁ F σ = .ok p₁ ∧
    (logNormalFormula codeDist).price (.ok t) K₂ F σ = .ok p₂ ∧ p₁ < p₂ := by
  have hv : 0 < σ * Real.sqrt t := mul_pos hσ (Real.sqrt_pos.2 ht)
  obtain ⟨K, hKdef⟩ : ∃ K, K = F * Real.exp (-(σ ^ 2 * t / 2)) := ⟨_, rfl⟩
  have hK : 0 < K := by rw [hKdef]; positivity
  have hvv : σ * Real.sqrt t * (σ * Real.sqrt t) = σ ^ 2 * t := by
    rw [mul_mul_mul_comm, Real.mul_self_sqrt ht.le]; ring
  have hlog : Real.log (F / K) = σ ^ 2 * t / 2 := by
    rw [hKdef, ← div_div, div_self hF.ne', one_div, ← Real.exp_neg, Real.log_exp]; ring
  have hd1 : docLogD t K F σ = σ * Real.sqrt t := by
    unfold docLogD
    rw [hlog, div_eq_iff hv.ne', hvv]; ring
  -- right of `K` the price is that of the negative branch
  set f : ℝ → ℝ := fun x => F * (1 - cdfTail (docLogD t x F σ)) - x * cdfTail (-(docLogD t x F σ - σ * Real.sqrt t)) with hf
  have hlt : ∀ x, K < x → docLogD t x F σ < σ * Real.sqrt t := by
    intro x hx
    rw [← hd1]
    unfold docLogD
    have := Real.log_lt_log (div_pos hF (hK.trans hx)) (div_lt_div_of_pos_left hF hK hx)
    exact div_lt_div_of_pos_right (by linarith) hv
  have hcont : ContinuousAt (fun x => docLogD t x F σ) K := by
    unfold docLogD
    have : ContinuousAt (fun x => Real.log (F / x)) K :=
      (continuousAt_const.div continuousAt_id hK.ne').log (div_ne_zero hF.ne' hK.ne')
    exact (this.add continuousAt_const).div_const _
  have htc : ∀ x : ℝ, 0 ≤ x → ContinuousAt cdfTail x := by
    intro x hx
    unfold cdfTail
    have h1 : ContinuousAt (fun x : ℝ => 1 / (1 + 0.2316419 * x)) x :=
      continuousAt_const.div (by fun_prop) (by positivity)
    have h2 : Continuous cdfPoly := by unfold cdfPoly; fun_prop
    have h3 : ContinuousAt (fun x : ℝ => 0.398942280401433 * Real.exp (-0.5 * x * x)) x := by fun_prop
    exact h3.mul (ContinuousAt.comp (f := fun x : ℝ => 1 / (1 + 0.2316419 * x)) h2.continuousAt h1)
  have hfc : ContinuousAt f K := by
    refine (continuousAt_const.mul (continuousAt_const.sub ?_)).sub (continuousAt_id.mul ?_)
    · exact ContinuousAt.comp (f := fun x => docLogD t x F σ) (htc _ (by rw [hd1]; exact hv.le)) hcont
    · refine ContinuousAt.comp (f := fun x => -(docLogD t x F σ - σ * Real.sqrt t)) (htc _ ?_)
        (hcont.sub continuousAt_const).neg
      rw [hd1]; simp
  have h0 := C70_zero
  rw [normalCdf_nonneg le_rfl] at h0
  have hjump : F * (1 - cdfTail (σ * Real.sqrt t)) - K * (1 - cdfTail 0) < f K := by
    rw [hf]
    simp only [hd1, sub_self, neg_zero]
    nlinarith [h0.1]
  have hev := (hfc.eventually (lt_mem_nhds hjump)).and (hcont.eventually (lt_mem_nhds (show 0 < docLogD t K F σ by rw [hd1]; exact hv)))
  obtain ⟨K₂, hK₂, hgt⟩ := ((hev.filter_mono nhdsWithin_le_nhds).and
    (self_mem_nhdsWithin (s := Set.Ioi K) (a := K))).exists
  have hgt' : K < K₂ := hgt
  refine ⟨K, K₂, _, _, hK, hgt', logNormal_price codeDist ht hσ.ne' (div_pos hF hK),
    logNormal_price codeDist ht hσ.ne' (div_pos hF (hK.trans hgt')), ?_⟩
  have hl := hlt K₂ hgt'
  simp only [codeDist, hd1, sub_self]
  rw [normalCdf_nonneg hv.le, normalCdf_nonneg le_rfl, normalCdf_nonneg hK₂.2.le,
    normalCdf_neg (show docLogD t K₂ F σ - σ * Real.sqrt t < 0 by linarith)]
  exact hK₂.1

/-- C125, partial: with the code's distribution function a call spread in the log-normal model is worth at least nothing
and at most its width, up to the accuracy of that function.  Full claim: without an error.  Missing: false, see above. -/
theorem C125_log_normal_partial (ht : 0 < t) (hσ : 0 < σ) (hF : 0 < F) {K₁ K₂ : ℝ} (hK : 0 < K₁) (h : K₁ < K₂) :
    ∃ p₁ p₂, (logNormalFormula codeDist).price (.ok t) K₁ F σ = .ok p₁ ∧
      (logNormalFormula codeDist).price (.ok t) K₂ F σ = .ok p₂ ∧
      -0.00001 * (2 * F + K₁ + K₂) < p₁ - p₂ ∧ p₁ - p₂ < K₂ - K₁ + 0.00001 * (2 * F + K₁ + K₂) := by
  obtain ⟨q₁, q₂, q, h1, h2, h3, h4, h5, h6⟩ := C125_log_normal_strike ht hσ hF hK h (w := 1 / 2) (by norm_num) (by norm_num)
  obtain ⟨p₁, r₁, a1, a2, a3⟩ := C101_log_normal_price ht hσ.ne' hF hK
  obtain ⟨p₂, r₂, b1, b2, b3⟩ := C101_log_normal_price ht hσ.ne' hF (hK.trans h)
  obtain rfl : r₁ = q₁ := Except.ok.inj (a2.symm.trans h1)
  obtain rfl : r₂ = q₂ := Except.ok.inj (b2.symm.trans h2)
  refine ⟨p₁, p₂, a1, b1, ?_, ?_⟩
  · linarith [(abs_le.1 a3).1, (abs_le.1 b3).2]
  · linarith [(abs_le.1 a3).2, (abs_le.1 b3).1]

/-- C125, partial: the same in the normal model. -/
theorem C125_normal_partial (ht : 0 < t) (hσ : 0 < σ) (F : ℝ) {K₁ K₂ : ℝ} (h : K₁ < K₂) :
    ∃ p₁ p₂, (normalFormula codeDist).price (.ok t) K₁ F σ = .ok p₁ ∧
      (normalFormula codeDist).price (.ok t) K₂ F σ = .ok p₂ ∧
      -(0.00001 * (|F - K₁| + |F - K₂|) + 0.0000000002 * (σ * Real.sqrt t)) < p₁ - p₂ ∧
      p₁ - p₂ < K₂ - K₁ + (0.00001 * (|F - K₁| + |F - K₂|) + 0.0000000002 * (σ * Real.sqrt t)) := by
  obtain ⟨q₁, q₂, q, h1, h2, h3, h4, h5, h6⟩ := C125_normal_strike ht hσ F h (w := 1 / 2) (by norm_num) (by norm_num)
  obtain ⟨p₁, r₁, a1, a2, a3⟩ := C101_normal_price ht hσ K₁ F
  obtain ⟨p₂, r₂, b1, b2, b3⟩ := C101_normal_price ht hσ K₂ F
  obtain rfl : r₁ = q₁ := Except.ok.inj (a2.symm.trans h1)
  obtain rfl : r₂ = q₂ := Except.ok.inj (b2.symm.trans h2)
  refine ⟨p₁, p₂, a1, b1, ?_, ?_⟩
  · linarith [(abs_le.1 a3).1, (abs_le.1 b3).2]
  · linarith [(abs_le.1 a3).2, (abs_le.1 b3).1]

end

/-- C124: the hypotheses of the swap hold: a forward of 100 and a strike of 90 in one model, 90 and 100 in the other. -/
example : ∃ p, (OptModel.mk (some (0 : ℝ)) (.num 100) (.num 20) (some fun a b => b - a) false (normalFormula codeDist)).putValue
      floatCal 1 (some 90) = .ok p ∧
    (OptModel.mk (some (0 : ℝ)) (.num 90) (.num 20) (some fun a b => b - a) false (normalFormula codeDist)).callValue
      floatCal 1 (some 100) = .ok p :=
  C124_swap_normal (v := 0) (v' := 0) (σ := 20) (t := 1 - 0) rfl rfl rfl rfl (.num (by norm_num)) (.num (by norm_num))
    (.num 20) (.num 20) (.own (dc := fun a b => b - a) rfl) (.own (dc := fun a b => b - a) rfl) (by norm_num) (by norm_num)

example : ∃ p, (OptModel.mk (some (0 : ℝ)) (.num 100) (.num 1) (some fun a b => b - a) false (logNormalFormula codeDist)).putValue
      floatCal 1 (some 100) = .ok p ∧
    (OptModel.mk (some (0 : ℝ)) (.num 100) (.num 1) (some fun a b => b - a) false (logNormalFormula codeDist)).callValue
      floatCal 1 (some 100) = .ok p :=
  C124_swap_log_normal_partial (v := 0) (v' := 0) (σ := 1) (t := 1 - 0) rfl rfl rfl rfl (.num (by norm_num)) (.num (by norm_num))
    (.num 1) (.num 1) (.own (dc := fun a b => b - a) rfl) (.own (dc := fun a b => b - a) rfl) (by norm_num) (by norm_num) (by norm_num) (by norm_num) (by norm_num) (by norm_num)

/-- C125: the hypotheses hold. -/
example : (0 : ℝ) < 1 ∧ (0 : ℝ) < 1 / 5 ∧ (0 : ℝ) < 100 ∧ (0 : ℝ) < 90 ∧ (90 : ℝ) < 110 ∧ (0 : ℝ) < 1 / 2 ∧ (1 / 2 : ℝ) < 1 := by
  norm_num

/-! ### The hypotheses can be met: each theorem applied -/

example := C124_normal_scale codeDist (.ok 1) 90 100 20 (c := 3) (by norm_num)
example := C124_log_normal_scale codeDist (.ok 1) 90 100 (1 / 5) (c := 3) (by norm_num)
example := C124_total_vol codeDist (t := 4) (by norm_num) 90 100 (1 / 5)
example := C124_swap_log_normal_violated (t := 1) (σ := 1 / 5) (K := 90) (by norm_num) (by norm_num) (by norm_num) rfl
example := C125_log_normal_forward (t := 1) (σ := 1 / 5) (K := 90) (F₁ := 90) (F₂ := 110) (w := 1 / 2) (by norm_num) (by norm_num) (by norm_num) (by norm_num) (by norm_num) (by norm_num) (by norm_num)
example := C125_normal (t := 1) (σ := 20) (F₁ := 90) (F₂ := 110) (w := 1 / 2) (by norm_num) (by norm_num) 90 (by norm_num) (by norm_num) (by norm_num)
example := C125_normal_vol (t := 1) (σ := 20) (σ' := 30) (by norm_num) (by norm_num) (by norm_num) 90 100
example := C125_time (t := 1) (t' := 2) (σ := 1 / 5) (by norm_num) (by norm_num) (by norm_num)
example := C125_normal_violated (t := 1) (σ := 1 / 5) (by norm_num) (by norm_num) 100
example := C125_log_normal_violated (t := 1) (σ := 1 / 5) (F := 100) (by norm_num) (by norm_num) (by norm_num)
example := C125_log_normal_partial (t := 1) (σ := 1 / 5) (F := 100) (K₁ := 90) (K₂ := 110) (by norm_num) (by norm_num) (by norm_num) (by norm_num) (by norm_num)
example := C125_normal_partial (t := 1) (σ := 1 / 5) (K₁ := 90) (K₂ := 110) (by norm_num) (by norm_num) 100 (by norm_num)

end Dcf
