import Verif.Props.Greeks

/-! # The normal distribution function of the code: C70 -/

set_option linter.unusedSectionVars false
set_option linter.unusedSimpArgs false
set_option linter.unusedVariables false

namespace Dcf

open Spec Filter Topology

/-- The part of `normalCdf` that is common to both branches. -/
noncomputable def cdfTail (x : ℝ) : ℝ :=
  0.398942280401433 * Real.exp (-0.5 * x * x) * cdfPoly (1 / (1 + 0.2316419 * x))

theorem normalCdf_nonneg {x : ℝ} (h : 0 ≤ x) : normalCdf x = 1 - cdfTail x := by simp [normalCdf, h, cdfTail]

theorem normalCdf_neg {x : ℝ} (h : x < 0) : normalCdf x = cdfTail (-x) := by
  simp only [normalCdf, h.not_ge, if_false, cdfTail]
  rw [show -0.5 * -x * -x = -0.5 * x * x by ring, show 1 + 0.2316419 * -x = 1 - 0.2316419 * x by ring]

theorem cdfPoly_deriv (r : ℝ) : HasDerivAt cdfPoly (0.31938153 - 0.713127564 * r + 5.344433811 * r ^ 2
    - 7.285023912 * r ^ 3 + 6.651372145 * r ^ 4) r := by
  have h : cdfPoly = fun r => 0.31938153 * r - 0.356563782 * r ^ 2 + 1.781477937 * r ^ 3 - 1.821255978 * r ^ 4
      + 1.330274429 * r ^ 5 := by funext r; simp only [cdfPoly]; ring
  rw [h]
  have := (((((hasDerivAt_id r).const_mul (0.31938153 : ℝ)).sub ((hasDerivAt_pow 2 r).const_mul (0.356563782 : ℝ))).add
    ((hasDerivAt_pow 3 r).const_mul (1.781477937 : ℝ))).sub ((hasDerivAt_pow 4 r).const_mul (1.821255978 : ℝ))).add
    ((hasDerivAt_pow 5 r).const_mul (1.330274429 : ℝ))
  refine this.congr_deriv ?_
  norm_num
  ring

theorem cdfPoly_strictMono : StrictMono cdfPoly := by
  refine strictMono_of_deriv_pos fun r => ?_
  rw [(cdfPoly_deriv r).deriv]
  nlinarith [sq_nonneg (r * (r - 0.5476)), sq_nonneg (r - 0.1066), sq_nonneg (r ^ 2)]

theorem cdfPoly_pos {r : ℝ} (h : 0 < r) : 0 < cdfPoly r := by
  have := cdfPoly_strictMono h
  simpa [cdfPoly] using this

theorem cdfRatio_pos {x : ℝ} (h : 0 ≤ x) : 0 < 1 / (1 + 0.2316419 * x) := by positivity

theorem cdfTail_pos {x : ℝ} (h : 0 ≤ x) : 0 < cdfTail x := by
  have := cdfPoly_pos (cdfRatio_pos h)
  unfold cdfTail; positivity

theorem cdfTail_zero : cdfTail 0 = 0.398942280401433 * 1.253314136 := by
  simp [cdfTail, cdfPoly]; norm_num

theorem cdfTail_strictAnti {x y : ℝ} (hx : 0 ≤ x) (h : x < y) : cdfTail y < cdfTail x := by
  have hy : 0 ≤ y := hx.trans h.le
  have h1 : Real.exp (-0.5 * y * y) < Real.exp (-0.5 * x * x) := Real.exp_lt_exp.2 (by nlinarith)
  have h2 : cdfPoly (1 / (1 + 0.2316419 * y)) < cdfPoly (1 / (1 + 0.2316419 * x)) := by
    refine cdfPoly_strictMono (one_div_lt_one_div_of_lt (by positivity) (by linarith))
  have h3 := cdfPoly_pos (cdfRatio_pos hy)
  unfold cdfTail
  have := mul_lt_mul'' h1 h2 (Real.exp_pos _).le h3.le
  nlinarith

theorem cdfTail_le {x : ℝ} (h : 0 ≤ x) : cdfTail x ≤ cdfTail 0 := by
  rcases h.eq_or_lt with rfl | h
  · exact le_rfl
  · exact (cdfTail_strictAnti le_rfl h).le

theorem cdfTail_lt_half {x : ℝ} (h : 0 ≤ x) : cdfTail x < 1 / 2 := by
  refine (cdfTail_le h).trans_lt ?_
  rw [cdfTail_zero]; norm_num

/-- C70: the distribution function takes values strictly between 0 and 1. -/
theorem C70_range (x : ℝ) : 0 < normalCdf x ∧ normalCdf x < 1 := by
  rcases lt_or_ge x 0 with h | h
  · rw [normalCdf_neg h]
    exact ⟨cdfTail_pos (by linarith), by linarith [cdfTail_lt_half (x := -x) (by linarith)]⟩
  · rw [normalCdf_nonneg h]
    exact ⟨by linarith [cdfTail_lt_half h], by linarith [cdfTail_pos h]⟩

/-- C70: the distribution function is symmetric away from 0. -/
theorem C70_symmetric {x : ℝ} (h : x ≠ 0) : normalCdf x + normalCdf (-x) = 1 := by
  rcases lt_or_gt_of_ne h with h | h
  · rw [normalCdf_neg h, normalCdf_nonneg (by linarith)]; ring
  · rw [normalCdf_nonneg h.le, normalCdf_neg (by linarith), neg_neg]; ring

/-- C70: at 0 the value is slightly above one half, so symmetry fails there. -/
theorem C70_zero : 1 / 2 < normalCdf 0 ∧ normalCdf 0 < 1 / 2 + 1e-9 ∧ normalCdf 0 + normalCdf (-0) ≠ 1 := by
  have h : normalCdf 0 = 1 - 0.398942280401433 * 1.253314136 := by rw [normalCdf_nonneg le_rfl, cdfTail_zero]
  rw [neg_zero, h]
  norm_num

/-- C70: the distribution function is strictly increasing. -/
theorem C70_monotone {x y : ℝ} (h : x < y) : normalCdf x < normalCdf y := by
  rcases lt_or_ge y 0 with hy | hy
  · rw [normalCdf_neg hy, normalCdf_neg (h.trans hy)]
    exact cdfTail_strictAnti (by linarith) (by linarith)
  · rw [normalCdf_nonneg hy]
    rcases lt_or_ge x 0 with hx | hx
    · rw [normalCdf_neg hx]
      linarith [cdfTail_lt_half hy, cdfTail_lt_half (x := -x) (by linarith)]
    · rw [normalCdf_nonneg hx]
      linarith [cdfTail_strictAnti hx h]

theorem cdfTail_tendsto : Tendsto cdfTail atTop (𝓝 0) := by
  have h1 : Tendsto (fun x : ℝ => Real.exp (-x)) atTop (𝓝 0) := Real.tendsto_exp_neg_atTop_nhds_zero
  refine squeeze_zero' ((eventually_ge_atTop 0).mono fun x hx => (cdfTail_pos hx).le) ?_ h1
  filter_upwards [eventually_ge_atTop 2] with x hx
  have h2 : Real.exp (-0.5 * x * x) ≤ Real.exp (-x) := Real.exp_le_exp.2 (by nlinarith)
  have h3 : cdfPoly (1 / (1 + 0.2316419 * x)) ≤ cdfPoly 1 :=
    cdfPoly_strictMono.monotone (by rw [div_le_one (by positivity)]; linarith)
  have h4 : cdfPoly 1 ≤ 2 := by simp [cdfPoly]; norm_num
  have h5 := cdfPoly_pos (cdfRatio_pos (x := x) (by linarith))
  have h6 := Real.exp_pos (-0.5 * x * x)
  unfold cdfTail
  nlinarith [mul_le_mul_of_nonneg_left (h3.trans h4) h6.le]

/-- C70: the distribution function tends to 1 and 0 at the ends. -/
theorem C70_limits : Tendsto normalCdf atTop (𝓝 1) ∧ Tendsto normalCdf atBot (𝓝 0) := by
  constructor
  · have h := (tendsto_const_nhds (x := (1 : ℝ))).sub cdfTail_tendsto
    rw [sub_zero] at h
    refine h.congr' ?_
    filter_upwards [eventually_ge_atTop 0] with x hx using (normalCdf_nonneg hx).symm
  · refine (cdfTail_tendsto.comp tendsto_neg_atBot_atTop).congr' ?_
    filter_upwards [eventually_lt_atBot 0] with x hx using (normalCdf_neg hx).symm

/-! ## Prices -/

theorem normalPdf_pos (x : ℝ) : 0 < normalPdf x := by unfold normalPdf; positivity

theorem cdfTail_pdf (x : ℝ) : cdfTail x = normalPdf x * cdfPoly (1 / (1 + 0.2316419 * x)) := rfl

/-- The polynomial deciding the sign of far out-of-the-money prices. -/
theorem cdfPoly_times {x : ℝ} (hx : 0 ≤ x) : ∃ r, r = 1 / (1 + 0.2316419 * x) ∧ 0.2316419 * (x * cdfPoly r) =
    (1 - r) * (0.31938153 - 0.356563782 * r + 1.781477937 * r ^ 2 - 1.821255978 * r ^ 3 + 1.330274429 * r ^ 4) := by
  refine ⟨_, rfl, ?_⟩
  have h : (1 + 0.2316419 * x) ≠ 0 := by positivity
  have hr : 0.2316419 * x * (1 / (1 + 0.2316419 * x)) = 1 - 1 / (1 + 0.2316419 * x) := by field_simp; ring
  generalize 1 / (1 + 0.2316419 * x) = r at *
  have : cdfPoly r = r * (0.31938153 - 0.356563782 * r + 1.781477937 * r ^ 2 - 1.821255978 * r ^ 3
    + 1.330274429 * r ^ 4) := by simp only [cdfPoly]; ring
  rw [this, ← hr]; ring

theorem times_gt {x : ℝ} (h : 9 ≤ x) : 1 < x * cdfPoly (1 / (1 + 0.2316419 * x)) := by
  obtain ⟨r, hr, he⟩ := cdfPoly_times (x := x) (by linarith)
  rw [← hr]
  have h0 : 0 < r := hr ▸ cdfRatio_pos (by linarith)
  have h1 : r ≤ 0.3243 := by
    rw [hr, div_le_iff₀ (by positivity)]; linarith
  have : 0.2316419 < (1 - r) * (0.31938153 - 0.356563782 * r + 1.781477937 * r ^ 2 - 1.821255978 * r ^ 3
      + 1.330274429 * r ^ 4) := by
    obtain ⟨u, hu, rfl⟩ : ∃ u, 0 ≤ u ∧ r = 0.3243 - u := ⟨0.3243 - r, by linarith, by ring⟩
    nlinarith [mul_nonneg hu h0.le, mul_nonneg (mul_nonneg hu hu) h0.le, mul_nonneg hu hu, pow_nonneg hu 3,
      pow_nonneg hu 4, mul_nonneg (pow_nonneg hu 3) h0.le, mul_nonneg (pow_nonneg hu 4) h0.le, pow_nonneg hu 5]
  nlinarith

theorem times_lt {x : ℝ} (h0 : 0 ≤ x) (h : x ≤ 8) : x * cdfPoly (1 / (1 + 0.2316419 * x)) < 1 := by
  obtain ⟨r, hr, he⟩ := cdfPoly_times (x := x) h0
  rw [← hr]
  have h1 : 0.35 ≤ r := by rw [hr, le_div_iff₀ (by positivity)]; linarith
  have h2 : r ≤ 1 := by rw [hr, div_le_one (by positivity)]; linarith
  have : (1 - r) * (0.31938153 - 0.356563782 * r + 1.781477937 * r ^ 2 - 1.821255978 * r ^ 3
      + 1.330274429 * r ^ 4) < 0.2316419 := by
    obtain ⟨u, hu, rfl⟩ : ∃ u, 0 ≤ u ∧ r = 0.35 + u := ⟨r - 0.35, by linarith, by ring⟩
    obtain ⟨w, hw, rfl⟩ : ∃ w, 0 ≤ w ∧ u = 0.65 - w := ⟨0.65 - u, by linarith, by ring⟩
    nlinarith [mul_nonneg hu hw, mul_nonneg (pow_nonneg hu 2) hw, mul_nonneg (pow_nonneg hw 2) hu,
      mul_nonneg (pow_nonneg hw 3) hu, mul_nonneg (pow_nonneg hw 2) (pow_nonneg hu 2),
      mul_nonneg (pow_nonneg hw 1) (pow_nonneg hu 3), mul_nonneg (pow_nonneg hw 3) (pow_nonneg hu 2),
      mul_nonneg (pow_nonneg hw 2) (pow_nonneg hu 3), mul_nonneg (pow_nonneg hw 4) (pow_nonneg hu 1), pow_nonneg hw 5,
      pow_nonneg hu 5]
  nlinarith

section
variable {t K F σ : ℝ}

theorem normal_price_code (ht : 0 < t) (hσ : 0 < σ) (K F : ℝ) : (normalFormula codeDist).price (.ok t) K F σ =
    .ok (σ * Real.sqrt t * (docD t K F σ * normalCdf (docD t K F σ) + normalPdf (docD t K F σ))) := by
  rw [normal_price codeDist ht hσ.ne']
  have hv := vol_ne ht hσ.ne'
  have hd : F - K = docD t K F σ * (σ * Real.sqrt t) := by unfold docD; field_simp
  rw [hd]
  simp only [codeDist]
  congr 1; ring

/-- C70, prices: calls in the normal model that are at most 8 standard deviations out of the money have a positive
value.  Full claim: all call values are non-negative.  Missing: it is false beyond a threshold between 8 and 9
standard deviations, see below and `C70_threshold`. -/
theorem C70_price_partial (ht : 0 < t) (hσ : 0 < σ) (h : -8 * (σ * Real.sqrt t) ≤ F - K) :
    ∃ p, (normalFormula codeDist).price (.ok t) K F σ = .ok p ∧ 0 < p := by
  refine ⟨_, normal_price_code ht hσ K F, ?_⟩
  have hv : 0 < σ * Real.sqrt t := mul_pos hσ (Real.sqrt_pos.2 ht)
  refine mul_pos hv ?_
  have hd : -8 ≤ docD t K F σ := by unfold docD; rwa [le_div_iff₀ hv]
  have hp := normalPdf_pos (docD t K F σ)
  rcases lt_or_ge (docD t K F σ) 0 with hn | hn
  · rw [normalCdf_neg hn, cdfTail_pdf]
    have he : normalPdf (-docD t K F σ) = normalPdf (docD t K F σ) := by simp [normalPdf]
    rw [he]
    have := times_lt (x := -docD t K F σ) (by linarith) (by linarith)
    nlinarith
  · have := (C70_range (docD t K F σ)).1
    positivity

/-- C70 fails for prices: the approximation gives a negative value to every call in the normal model that is more than 9
standard deviations out of the money. -/
theorem C70_price_violated (ht : 0 < t) (hσ : 0 < σ) (h : F - K ≤ -9 * (σ * Real.sqrt t)) :
    ∃ p, (normalFormula codeDist).price (.ok t) K F σ = .ok p ∧ p < 0 := by
  refine ⟨_, normal_price_code ht hσ K F, ?_⟩
  have hv : 0 < σ * Real.sqrt t := mul_pos hσ (Real.sqrt_pos.2 ht)
  refine mul_neg_of_pos_of_neg hv ?_
  have hd : docD t K F σ ≤ -9 := by unfold docD; rwa [div_le_iff₀ hv]
  have hp := normalPdf_pos (docD t K F σ)
  rw [normalCdf_neg (by linarith), cdfTail_pdf]
  have he : normalPdf (-docD t K F σ) = normalPdf (docD t K F σ) := by simp [normalPdf]
  rw [he]
  have := times_gt (x := -docD t K F σ) (by linarith)
  nlinarith

/-- C70: both cases occur for a call with strike 100, volatility 5 and one year to expiry. -/
example : (-8 : ℝ) * (5 * Real.sqrt 1) ≤ 80 - 100 ∧ (40 : ℝ) - 100 ≤ -9 * (5 * Real.sqrt 1) := by
  rw [Real.sqrt_one]; norm_num

end

/-! ### The hypotheses can be met: each theorem applied -/

example := C70_symmetric (x := 3 / 2) (by norm_num)
example := C70_monotone (x := -1) (y := 3 / 2) (by norm_num)
example := C70_price_partial (K := 1) (F := 2) (one_pos : (0 : ℝ) < 1) (σ := 1 / 5) (by norm_num) (by norm_num)
example := C70_price_violated (K := 11) (F := 2) (one_pos : (0 : ℝ) < 1) (σ := 1 / 5) (by norm_num) (by norm_num)

end Dcf
