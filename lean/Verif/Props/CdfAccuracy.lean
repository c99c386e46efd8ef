import Mathlib.Analysis.Real.Pi.Bounds
import Mathlib.MeasureTheory.Integral.IntegralEqImproper
import Verif.Lemmas.CdfBounds

/-! # Accuracy of the normal distribution function, exact prices: C70, C101, C102 -/

set_option linter.unusedSectionVars false
set_option linter.unusedSimpArgs false
set_option linter.unusedVariables false

namespace Dcf

open Spec Filter Topology MeasureTheory

/-! ## The exact distribution function -/

theorem gaussCdf_neg (x : ℝ) : gaussCdf (-x) = 1 - gaussCdf x := by
  have h1 := intervalIntegral.integral_Iic_add_Ioi (b := x) (f := gaussPdf) (μ := volume)
    gaussPdf_integrable.integrableOn gaussPdf_integrable.integrableOn
  rw [gaussPdf_integral] at h1
  have h2 : gaussCdf (-x) = ∫ t in Set.Ioi x, gaussPdf t := by
    have := integral_comp_neg_Iic (-x) gaussPdf
    rw [neg_neg] at this
    rw [← this]
    simp only [gaussCdf, gaussPdf_neg]
  rw [h2]
  simp only [gaussCdf]
  linarith

theorem gaussCdf_zero : gaussCdf 0 = 1 / 2 := by
  have := gaussCdf_neg 0
  rw [neg_zero] at this
  linarith

theorem gaussCdf_atBot : Tendsto gaussCdf atBot (𝓝 0) := tendsto_integral_Iic_zero tendsto_id

theorem gaussCdf_atTop : Tendsto gaussCdf atTop (𝓝 1) := by
  have h := (tendsto_const_nhds (x := (1 : ℝ))).sub (gaussCdf_atBot.comp tendsto_neg_atTop_atBot)
  rw [sub_zero] at h
  refine h.congr fun x => ?_
  simp [gaussCdf_neg]

theorem gaussCdf_strictMono : StrictMono gaussCdf :=
  strictMono_of_deriv_pos fun x => by rw [(gaussCdf_deriv x).deriv]; exact gaussPdf_pos x

theorem gaussCdf_pos (x : ℝ) : 0 < gaussCdf x := by
  have h : 0 ≤ gaussCdf (x - 1) := by
    refine setIntegral_nonneg measurableSet_Iic fun t _ => (gaussPdf_pos t).le
  exact h.trans_lt (gaussCdf_strictMono (by linarith))

theorem gaussCdf_lt_one (x : ℝ) : gaussCdf x < 1 := by
  have := gaussCdf_pos (-x)
  rw [gaussCdf_neg] at this
  linarith

/-- A function with non-positive derivative on the positive axis that tends to 0 is non-negative there. -/
theorem nonneg_of_antitone {u u' : ℝ → ℝ} (h : ∀ x, 0 ≤ x → HasDerivAt u (u' x) x) (h' : ∀ x, 0 ≤ x → u' x ≤ 0)
    (hl : Tendsto u atTop (𝓝 0)) {x : ℝ} (hx : 0 ≤ x) : 0 ≤ u x := by
  have ha : AntitoneOn u (Set.Ici 0) := by
    refine antitoneOn_of_deriv_nonpos (convex_Ici 0) (fun y hy => (h y hy).continuousAt.continuousWithinAt)
      (fun y hy => ?_) fun y hy => ?_
    · rw [interior_Ici] at hy
      exact (h y (le_of_lt hy)).differentiableAt.differentiableWithinAt
    · rw [interior_Ici] at hy
      rw [(h y (le_of_lt hy)).deriv]
      exact h' y (le_of_lt hy)
  refine le_of_tendsto hl ?_
  filter_upwards [eventually_ge_atTop x] with y hy
  exact ha hx (hx.trans hy) hy

/-! ## C101: accuracy -/

theorem cdfTail_deriv {x : ℝ} (hx : 0 ≤ x) : HasDerivAt cdfTail
    (-(0.398942280401433 * Real.exp (-x ^ 2 / 2) * (1 + cdfBracket (1 / (1 + 0.2316419 * x))))) x := by
  have hp : (1 + 0.2316419 * x) ≠ 0 := by positivity
  have h1 : HasDerivAt (fun x : ℝ => Real.exp (-0.5 * x * x)) (-x * Real.exp (-0.5 * x * x)) x := by
    have h : HasDerivAt (fun x : ℝ => -0.5 * x * x) (-x) x := by
      refine (((hasDerivAt_id x).const_mul (-0.5)).mul (hasDerivAt_id x)).congr_deriv ?_
      simp only [id]; ring
    exact h.exp.congr_deriv (by ring)
  have h2 : HasDerivAt (fun x : ℝ => 1 / (1 + 0.2316419 * x)) (-0.2316419 * (1 / (1 + 0.2316419 * x)) ^ 2) x := by
    have := (hasDerivAt_const x (1 : ℝ)).div (((hasDerivAt_id x).const_mul (0.2316419 : ℝ)).const_add 1) hp
    refine this.congr_deriv ?_
    simp only [id]; field_simp; ring
  have h3 := (h1.const_mul 0.398942280401433).mul ((cdfPoly_deriv (1 / (1 + 0.2316419 * x))).comp x h2)
  refine h3.congr_deriv ?_
  obtain ⟨r, hr, he⟩ := cdfPoly_times hx
  rw [show -0.5 * x * x = -x ^ 2 / 2 by ring]
  simp only [Function.comp_apply]
  rw [← hr]
  have hx' : x * cdfPoly r = (1 - r) * (0.31938153 - 0.356563782 * r + 1.781477937 * r ^ 2 - 1.821255978 * r ^ 3
      + 1.330274429 * r ^ 4) / 0.2316419 := by rw [← he]; field_simp
  unfold cdfBracket
  rw [← hx']
  ring

theorem sqrt_two_pi_bounds : 2.5066282746 < Real.sqrt (2 * Real.pi) ∧ Real.sqrt (2 * Real.pi) < 2.5066282747 := by
  have h1 := Real.pi_gt_d20
  have h2 := Real.pi_lt_d20
  constructor
  · rw [Real.lt_sqrt (by norm_num)]; norm_num at h1 ⊢; linarith
  · rw [Real.sqrt_lt' (by norm_num)]; norm_num at h2 ⊢; linarith

theorem pdf_const : |0.398942280401433 - (Real.sqrt (2 * Real.pi))⁻¹| ≤ 0.0000000001 := by
  obtain ⟨h1, h2⟩ := sqrt_two_pi_bounds
  have h0 : 0 < Real.sqrt (2 * Real.pi) := by linarith
  rw [abs_le]
  constructor
  · have : (Real.sqrt (2 * Real.pi))⁻¹ ≤ 2.5066282746⁻¹ := by gcongr
    have e : (2.5066282746 : ℝ)⁻¹ ≤ 0.398942280401433 + 0.0000000001 := by norm_num
    linarith
  · have : (2.5066282747 : ℝ)⁻¹ ≤ (Real.sqrt (2 * Real.pi))⁻¹ := by gcongr
    have e : (0.398942280401433 : ℝ) - 0.0000000001 ≤ 2.5066282747⁻¹ := by norm_num
    linarith

/-- Majorant of the error. -/
noncomputable def cdfMajorant (x : ℝ) : ℝ :=
  0.0000058 * (Real.sqrt (2 * Real.pi) * (1 - gaussCdf x))
    + 0.000000024 * ((x ^ 6 + 6 * x ^ 4 + 24 * x ^ 2 + 48) * Real.exp (-x ^ 2 / 2))

theorem exp_half_deriv (x : ℝ) : HasDerivAt (fun x : ℝ => Real.exp (-x ^ 2 / 2)) (-x * Real.exp (-x ^ 2 / 2)) x := by
  have h : HasDerivAt (fun x : ℝ => -x ^ 2 / 2) (-x) x := by
    refine (((hasDerivAt_pow 2 x).neg).div_const 2).congr_deriv ?_
    simp only [Nat.cast_ofNat]; ring
  exact h.exp.congr_deriv (by ring)

theorem cdfMajorant_deriv (x : ℝ) : HasDerivAt cdfMajorant
    (-((0.0000058 + 0.000000024 * x ^ 7) * Real.exp (-x ^ 2 / 2))) x := by
  have h0 : Real.sqrt (2 * Real.pi) ≠ 0 := by have := Real.pi_pos; positivity
  have h1 := (((gaussCdf_deriv x).const_sub 1).const_mul (Real.sqrt (2 * Real.pi))).const_mul 0.0000058
  have h2 : HasDerivAt (fun x : ℝ => x ^ 6 + 6 * x ^ 4 + 24 * x ^ 2 + 48) (6 * x ^ 5 + 24 * x ^ 3 + 48 * x) x := by
    have := (((hasDerivAt_pow 6 x).add ((hasDerivAt_pow 4 x).const_mul 6)).add
      ((hasDerivAt_pow 2 x).const_mul 24)).add_const 48
    refine this.congr_deriv ?_
    norm_num; ring
  have h3 := (h2.mul (exp_half_deriv x)).const_mul 0.000000024
  refine (h1.add h3).congr_deriv ?_
  simp only [gaussPdf]
  field_simp
  ring

theorem cdfMajorant_atTop : Tendsto cdfMajorant atTop (𝓝 0) := by
  have h1 := (((tendsto_const_nhds (x := (1 : ℝ))).sub gaussCdf_atTop).const_mul (Real.sqrt (2 * Real.pi))).const_mul
    0.0000058
  have hy : Tendsto (fun x : ℝ => x ^ 2 / 2) atTop atTop :=
    (tendsto_pow_atTop two_ne_zero).atTop_div_const (by norm_num)
  have hp : ∀ n : ℕ, Tendsto (fun x : ℝ => (x ^ 2 / 2) ^ n * Real.exp (-(x ^ 2 / 2))) atTop (𝓝 0) := fun n =>
    (Real.tendsto_pow_mul_exp_neg_atTop_nhds_zero n).comp hy
  have h2 := (((((hp 3).const_mul 8).add ((hp 2).const_mul 24)).add ((hp 1).const_mul 48)).add
    ((hp 0).const_mul 48)).const_mul 0.000000024
  have h3 := h1.add h2
  simp only [sub_self, mul_zero, add_zero] at h3
  refine h3.congr fun x => ?_
  simp only [cdfMajorant, neg_div]
  ring

theorem cdfMajorant_zero : cdfMajorant 0 < 0.00001 := by
  obtain ⟨-, h2⟩ := sqrt_two_pi_bounds
  simp only [cdfMajorant, gaussCdf_zero]
  generalize Real.sqrt (2 * Real.pi) = s at *
  norm_num at h2 ⊢
  linarith

theorem cdfMajorant_le {x : ℝ} (hx : 0 ≤ x) : cdfMajorant x ≤ cdfMajorant 0 := by
  have : AntitoneOn cdfMajorant (Set.Ici 0) := by
    refine antitoneOn_of_deriv_nonpos (convex_Ici 0)
      (fun y hy => (cdfMajorant_deriv y).continuousAt.continuousWithinAt)
      (fun y hy => (cdfMajorant_deriv y).differentiableAt.differentiableWithinAt) fun y hy => ?_
    rw [interior_Ici] at hy
    have : (0 : ℝ) < y := hy
    rw [(cdfMajorant_deriv y).deriv, Left.neg_nonpos_iff]
    positivity
  exact this (Set.self_mem_Ici) hx hx

theorem cdf_error_nonneg {x : ℝ} (hx : 0 ≤ x) : |1 - cdfTail x - gaussCdf x| ≤ cdfMajorant x := by
  have hd : ∀ x : ℝ, 0 ≤ x → HasDerivAt (fun x => 1 - cdfTail x - gaussCdf x)
      (0.398942280401433 * Real.exp (-x ^ 2 / 2) * (1 + cdfBracket (1 / (1 + 0.2316419 * x))) - gaussPdf x) x :=
    fun x hx => (((cdfTail_deriv hx).const_sub 1).sub (gaussCdf_deriv x)).congr_deriv (by ring)
  have hb : ∀ x : ℝ, 0 ≤ x → |0.398942280401433 * Real.exp (-x ^ 2 / 2) * (1 + cdfBracket (1 / (1 + 0.2316419 * x)))
      - gaussPdf x| ≤ (0.0000058 + 0.000000024 * x ^ 7) * Real.exp (-x ^ 2 / 2) := fun x hx => by
    have h1 := cdfBracket_bound hx
    have h2 := pdf_const
    have he := Real.exp_pos (-x ^ 2 / 2)
    have e : 0.398942280401433 * Real.exp (-x ^ 2 / 2) * (1 + cdfBracket (1 / (1 + 0.2316419 * x))) - gaussPdf x =
        (0.398942280401433 * cdfBracket (1 / (1 + 0.2316419 * x)) + (0.398942280401433 - (Real.sqrt (2 * Real.pi))⁻¹)) *
          Real.exp (-x ^ 2 / 2) := by simp only [gaussPdf]; ring
    rw [e, abs_mul, abs_of_pos he]
    refine mul_le_mul_of_nonneg_right ?_ he.le
    refine (abs_add_le _ _).trans ?_
    rw [abs_mul, abs_of_pos (show (0 : ℝ) < 0.398942280401433 by norm_num)]
    have h7 : 0 ≤ x ^ 7 := by positivity
    nlinarith
  have hl : Tendsto (fun x => 1 - cdfTail x - gaussCdf x) atTop (𝓝 0) := by
    have := ((tendsto_const_nhds (x := (1 : ℝ))).sub cdfTail_tendsto).sub gaussCdf_atTop
    norm_num at this
    exact this
  have u1 := nonneg_of_antitone (u := fun x => cdfMajorant x - (1 - cdfTail x - gaussCdf x))
    (fun x hx => (cdfMajorant_deriv x).sub (hd x hx)) (fun x hx => by have := (abs_le.1 (hb x hx)).1; linarith)
    (by simpa using cdfMajorant_atTop.sub hl) hx
  have u2 := nonneg_of_antitone (u := fun x => cdfMajorant x + (1 - cdfTail x - gaussCdf x))
    (fun x hx => (cdfMajorant_deriv x).add (hd x hx)) (fun x hx => by have := (abs_le.1 (hb x hx)).2; linarith)
    (by simpa using cdfMajorant_atTop.add hl) hx
  exact abs_le.2 ⟨by linarith, by linarith⟩

/-- C101: the distribution function of the code is within 0.00001 of the standard normal distribution function, for every
argument. -/
theorem C101_cdf (x : ℝ) : |normalCdf x - gaussCdf x| < 0.00001 := by
  rcases lt_or_ge x 0 with h | h
  · rw [normalCdf_neg h]
    have h1 := cdf_error_nonneg (x := -x) (by linarith)
    rw [gaussCdf_neg] at h1
    have : cdfTail (-x) - gaussCdf x = -(1 - cdfTail (-x) - (1 - gaussCdf x)) := by ring
    rw [this, abs_neg]
    exact h1.trans_lt ((cdfMajorant_le (by linarith)).trans_lt cdfMajorant_zero)
  · rw [normalCdf_nonneg h]
    exact (cdf_error_nonneg h).trans_lt ((cdfMajorant_le h).trans_lt cdfMajorant_zero)

/-- C101: the density of the code is within 1e-10 of the standard normal density. -/
theorem C101_pdf (x : ℝ) : |normalPdf x - gaussPdf x| ≤ 0.0000000001 := by
  have h := pdf_const
  have e : normalPdf x - gaussPdf x = (0.398942280401433 - (Real.sqrt (2 * Real.pi))⁻¹) * Real.exp (-x ^ 2 / 2) := by
    simp only [normalPdf, gaussPdf]
    rw [show -0.5 * x * x = -x ^ 2 / 2 by ring]
    ring
  rw [e, abs_mul, abs_of_pos (Real.exp_pos _)]
  have h1 : Real.exp (-x ^ 2 / 2) ≤ 1 := Real.exp_le_one_iff.2 (by nlinarith [sq_nonneg x])
  nlinarith [abs_nonneg (0.398942280401433 - (Real.sqrt (2 * Real.pi))⁻¹), Real.exp_pos (-x ^ 2 / 2)]

section
variable {t K F σ : ℝ}

/-- C101: prices in the normal model are off by at most 0.00001 times the moneyness (plus a rounding term). -/
theorem C101_normal_price (ht : 0 < t) (hσ : 0 < σ) (K F : ℝ) : ∃ p q,
    (normalFormula codeDist).price (.ok t) K F σ = .ok p ∧ (normalFormula exactDist).price (.ok t) K F σ = .ok q ∧
    |p - q| ≤ 0.00001 * |F - K| + 0.0000000001 * (σ * Real.sqrt t) := by
  refine ⟨_, _, normal_price codeDist ht hσ.ne' K F, normal_price exactDist ht hσ.ne' K F, ?_⟩
  have h1 := (C101_cdf (docD t K F σ)).le
  have h2 := C101_pdf (docD t K F σ)
  simp only [codeDist, exactDist]
  generalize docD t K F σ = d at *
  have hv : 0 < σ * Real.sqrt t := mul_pos hσ (Real.sqrt_pos.2 ht)
  have e : (F - K) * normalCdf d + σ * Real.sqrt t * normalPdf d - ((F - K) * gaussCdf d + σ * Real.sqrt t * gaussPdf d) =
      (F - K) * (normalCdf d - gaussCdf d) + σ * Real.sqrt t * (normalPdf d - gaussPdf d) := by ring
  rw [e]
  refine (abs_add_le _ _).trans ?_
  rw [abs_mul, abs_mul, abs_of_pos hv]
  nlinarith [abs_nonneg (F - K)]

/-- C101: prices in the log-normal model are off by at most 0.00001 times forward plus strike. -/
theorem C101_log_normal_price (ht : 0 < t) (hσ : σ ≠ 0) (hF : 0 < F) (hK : 0 < K) : ∃ p q,
    (logNormalFormula codeDist).price (.ok t) K F σ = .ok p ∧ (logNormalFormula exactDist).price (.ok t) K F σ = .ok q ∧
    |p - q| ≤ 0.00001 * (F + K) := by
  refine ⟨_, _, logNormal_price codeDist ht hσ (div_pos hF hK), logNormal_price exactDist ht hσ (div_pos hF hK), ?_⟩
  have h1 := (C101_cdf (docLogD t K F σ)).le
  have h2 := (C101_cdf (docLogD t K F σ - σ * Real.sqrt t)).le
  simp only [codeDist, exactDist]
  generalize docLogD t K F σ - σ * Real.sqrt t = e at *
  generalize docLogD t K F σ = d at *
  have e : F * normalCdf d - K * normalCdf e - (F * gaussCdf d - K * gaussCdf e) =
      F * (normalCdf d - gaussCdf d) + -(K * (normalCdf e - gaussCdf e)) := by ring
  rw [e]
  refine (abs_add_le _ _).trans ?_
  rw [abs_neg, abs_mul, abs_mul, abs_of_pos hF, abs_of_pos hK]
  nlinarith

/-! ## C102: exact prices -/

/-- Mills' inequality: the normal call is worth something at every strike. -/
theorem gauss_call_pos (d : ℝ) : 0 < d * gaussCdf d + gaussPdf d := by
  rcases lt_or_ge d 0 with h | h
  swap
  · have := gaussCdf_pos d; have := gaussPdf_pos d; positivity
  -- the function is increasing in d, and its value at -x is bounded below by one that tends to 0
  have hmono : StrictMono fun d => d * gaussCdf d + gaussPdf d := strictMono_of_deriv_pos fun x => by
    have := ((hasDerivAt_id x).mul (gaussCdf_deriv x)).add (gaussPdf_deriv x)
    have h2 : HasDerivAt (fun d => d * gaussCdf d + gaussPdf d) (gaussCdf x) x := this.congr_deriv (by simp)
    rw [h2.deriv]; exact gaussCdf_pos x
  -- k(x) = φ(x)/x - Φ(-x) is decreasing and tends to 0
  have hk : ∀ x : ℝ, 0 ≤ x → 0 ≤ gaussPdf (x + 1) / (x + 1) - gaussCdf (-(x + 1)) := by
    intro x hx
    refine nonneg_of_antitone (u := fun x => gaussPdf (x + 1) / (x + 1) - gaussCdf (-(x + 1)))
      (u' := fun x => -(gaussPdf (x + 1) / (x + 1) ^ 2)) (fun y hy => ?_) (fun y hy => ?_) ?_ hx
    · have hy1 : y + 1 ≠ 0 := by positivity
      have a1 : HasDerivAt (fun y : ℝ => y + 1) 1 y := (hasDerivAt_id y).add_const 1
      have a2 := ((gaussPdf_deriv (y + 1)).comp y a1).div a1 hy1
      have a3 := (gaussCdf_deriv (-(y + 1))).comp y a1.neg
      refine (a2.sub a3).congr_deriv ?_
      simp only [Function.comp_apply, gaussPdf_neg]
      field_simp
      ring
    · rw [Left.neg_nonpos_iff]; have := gaussPdf_pos (y + 1); positivity
    · have b1 : Tendsto (fun y : ℝ => y + 1) atTop atTop := tendsto_atTop_add_const_right _ _ tendsto_id
      have b2 : Tendsto (fun y : ℝ => gaussCdf (-(y + 1))) atTop (𝓝 0) :=
        gaussCdf_atBot.comp (tendsto_neg_atTop_atBot.comp b1)
      have b3 : Tendsto (fun y : ℝ => gaussPdf (y + 1) / (y + 1)) atTop (𝓝 0) := by
        have b4 : Tendsto (fun y : ℝ => (y + 1)⁻¹) atTop (𝓝 0) := tendsto_inv_atTop_zero.comp b1
        refine squeeze_zero' ((eventually_ge_atTop 0).mono fun y hy => ?_) ((eventually_ge_atTop 0).mono fun y hy => ?_) b4
        · have := gaussPdf_pos (y + 1); positivity
        · have hp : gaussPdf (y + 1) ≤ 1 := by
            unfold gaussPdf
            have e1 : Real.exp (-(y + 1) ^ 2 / 2) ≤ 1 := Real.exp_le_one_iff.2 (by nlinarith [sq_nonneg (y + 1)])
            have e2 : (Real.sqrt (2 * Real.pi))⁻¹ ≤ 1 := inv_le_one_of_one_le₀ (by linarith [sqrt_two_pi_bounds.1])
            have e3 : 0 < Real.sqrt (2 * Real.pi) := by linarith [sqrt_two_pi_bounds.1]
            exact mul_le_one₀ e2 (Real.exp_pos _).le e1
          rw [div_eq_mul_inv]
          have : 0 ≤ (y + 1)⁻¹ := by positivity
          nlinarith
      simpa using b3.sub b2
  -- at any point below min(d, -1) - 1 the value is non-negative
  have hx := hk (-d) (by linarith)
  have hpos : 0 < -d + 1 := by linarith
  have h0 : 0 ≤ (d - 1) * gaussCdf (d - 1) + gaussPdf (d - 1) := by
    have e : gaussPdf (-d + 1) = gaussPdf (d - 1) := by rw [← gaussPdf_neg]; congr 1; ring
    have e' : -(-d + 1) = d - 1 := by ring
    rw [e, e', sub_nonneg, le_div_iff₀ hpos] at hx
    linarith
  exact h0.trans_lt (hmono (by linarith))

/-- C102: with the exact distribution every normal call is worth more than its intrinsic value. -/
theorem C102_normal (ht : 0 < t) (hσ : 0 < σ) (K F : ℝ) :
    ∃ p, (normalFormula exactDist).price (.ok t) K F σ = .ok p ∧ max (F - K) 0 < p := by
  refine ⟨_, normal_price exactDist ht hσ.ne' K F, ?_⟩
  have hv : 0 < σ * Real.sqrt t := mul_pos hσ (Real.sqrt_pos.2 ht)
  have hd : F - K = docD t K F σ * (σ * Real.sqrt t) := by unfold docD; field_simp
  simp only [exactDist]
  rw [hd]
  have h1 := gauss_call_pos (docD t K F σ)
  have h2 := gauss_call_pos (-docD t K F σ)
  rw [gaussCdf_neg, gaussPdf_neg] at h2
  generalize docD t K F σ = d at *
  generalize σ * Real.sqrt t = v at *
  refine max_lt ?_ ?_
  · have := mul_pos hv h2
    nlinarith
  · have := mul_pos hv h1
    nlinarith

theorem docLogD_swap (ht : 0 < t) (hσ : σ ≠ 0) (hF : 0 < F) (hK : 0 < K) :
    docLogD t F K σ = -(docLogD t K F σ - σ * Real.sqrt t) := by
  have hv := vol_ne ht hσ
  have hsq : Real.sqrt t ^ 2 = t := Real.sq_sqrt ht.le
  unfold docLogD
  rw [Real.log_div hF.ne' hK.ne', Real.log_div hK.ne' hF.ne', div_eq_iff hv]
  field_simp
  rw [hsq]
  ring

theorem logNormal_exact_pos (ht : 0 < t) (hσ : 0 < σ) (hF : 0 < F) (hK : 0 < K) :
    0 < F * gaussCdf (docLogD t K F σ) - K * gaussCdf (docLogD t K F σ - σ * Real.sqrt t) := by
  set p : ℝ → ℝ := fun F => F * gaussCdf (docLogD t K F σ) - K * gaussCdf (docLogD t K F σ - σ * Real.sqrt t) with hp
  have hmono : StrictMonoOn p (Set.Ioi 0) := by
    refine strictMonoOn_of_deriv_pos (convex_Ioi 0)
      (fun y hy => (logNormal_price_deriv ht hσ.ne' hy hK).continuousAt.continuousWithinAt) fun y hy => ?_
    rw [interior_Ioi] at hy
    rw [hp, (logNormal_price_deriv ht hσ.ne' hy hK).deriv]
    exact gaussCdf_pos _
  -- the limit at 0
  have hv : 0 < σ * Real.sqrt t := mul_pos hσ (Real.sqrt_pos.2 ht)
  have hd : Tendsto (fun F => docLogD t K F σ - σ * Real.sqrt t) (𝓝[>] 0) atBot := by
    have h1 : Tendsto (fun F : ℝ => F / K) (𝓝[>] 0) (𝓝[>] 0) := by
      refine tendsto_nhdsWithin_iff.2 ⟨?_, ?_⟩
      · have : Tendsto (fun F : ℝ => F / K) (𝓝 0) (𝓝 (0 / K)) := (continuous_id.div_const K).tendsto 0
        rw [zero_div] at this
        exact this.mono_left nhdsWithin_le_nhds
      · filter_upwards [self_mem_nhdsWithin] with y hy using div_pos hy hK
    have h2 := Real.tendsto_log_nhdsGT_zero.comp h1
    have h3 := (tendsto_atBot_add_const_right _ (σ ^ 2 * t / 2) h2).atBot_div_const hv
    exact tendsto_atBot_add_const_right _ (-(σ * Real.sqrt t)) h3
  have hl : Tendsto p (𝓝[>] 0) (𝓝 0) := by
    have h1 : Tendsto (fun F => F * gaussCdf (docLogD t K F σ)) (𝓝[>] 0) (𝓝 0) := by
      have hid : Tendsto (fun F : ℝ => F) (𝓝[>] 0) (𝓝 0) := tendsto_id.mono_left nhdsWithin_le_nhds
      refine squeeze_zero' ?_ ?_ hid
      · filter_upwards [self_mem_nhdsWithin] with y hy
        exact mul_nonneg (le_of_lt hy) (gaussCdf_pos _).le
      · filter_upwards [self_mem_nhdsWithin] with y hy
        have : (0 : ℝ) < y := hy
        nlinarith [gaussCdf_lt_one (docLogD t K y σ)]
    have h2 := (gaussCdf_atBot.comp hd).const_mul K
    simpa using h1.sub h2
  have h2 : 0 ≤ p (F / 2) := by
    refine le_of_tendsto hl ?_
    have : Set.Ioo 0 (F / 2) ∈ 𝓝[>] (0 : ℝ) := Ioo_mem_nhdsGT (by positivity)
    filter_upwards [this] with y hy
    exact (hmono hy.1 (show (0 : ℝ) < F / 2 by positivity) hy.2).le
  exact h2.trans_lt (hmono (show (0 : ℝ) < F / 2 by positivity) hF (by linarith))

/-- C102: with the exact distribution every log-normal call is worth more than its intrinsic value and less than the
forward. -/
theorem C102_log_normal (ht : 0 < t) (hσ : 0 < σ) (hF : 0 < F) (hK : 0 < K) :
    ∃ p, (logNormalFormula exactDist).price (.ok t) K F σ = .ok p ∧ max (F - K) 0 < p ∧ p < F := by
  refine ⟨_, logNormal_price exactDist ht hσ.ne' (div_pos hF hK), ?_, ?_⟩
  · simp only [exactDist]
    refine max_lt ?_ (logNormal_exact_pos ht hσ hF hK)
    have h := logNormal_exact_pos ht hσ hK hF
    rw [docLogD_swap ht hσ.ne' hF hK] at h
    have e : -(docLogD t K F σ - σ * Real.sqrt t) - σ * Real.sqrt t = -docLogD t K F σ := by ring
    rw [e, gaussCdf_neg, gaussCdf_neg] at h
    linarith
  · simp only [exactDist]
    nlinarith [gaussCdf_lt_one (docLogD t K F σ), gaussCdf_pos (docLogD t K F σ - σ * Real.sqrt t)]

/-- C102: prices rise with the volatility. -/
theorem C102_vol (ht : 0 < t) {σ' : ℝ} (hσ : 0 < σ) (h : σ < σ') (hF : 0 < F) (hK : 0 < K) :
    ∃ p p', (logNormalFormula exactDist).price (.ok t) K F σ = .ok p ∧
      (logNormalFormula exactDist).price (.ok t) K F σ' = .ok p' ∧ p < p' := by
  refine ⟨_, _, logNormal_price exactDist ht hσ.ne' (div_pos hF hK),
    logNormal_price exactDist ht (hσ.trans h).ne' (div_pos hF hK), ?_⟩
  have hmono : StrictMonoOn (fun σ => F * gaussCdf (docLogD t K F σ) - K * gaussCdf (docLogD t K F σ - σ * Real.sqrt t))
      (Set.Ioi 0) := by
    refine strictMonoOn_of_deriv_pos (convex_Ioi 0)
      (fun y hy => (logNormal_price_vega ht (ne_of_gt hy) hF hK).continuousAt.continuousWithinAt) fun y hy => ?_
    rw [interior_Ioi] at hy
    rw [(logNormal_price_vega ht (ne_of_gt hy) hF hK).deriv]
    have := gaussPdf_pos (docLogD t K F y)
    have := Real.sqrt_pos.2 ht
    positivity
  exact hmono hσ (hσ.trans h) h

end

/-! ### The hypotheses can be met: each theorem applied -/

example := C101_normal_price (t := 2) (σ := 1 / 100) (by norm_num) (by norm_num) (3 / 100) (2 / 100)
example := C101_log_normal_price (t := 2) (σ := 1 / 5) (F := 100) (K := 90) (by norm_num) (by norm_num) (by norm_num) (by norm_num)
example := C102_vol (t := 2) (σ := 1 / 5) (σ' := 1 / 4) (F := 100) (K := 90) (by norm_num) (by norm_num) (by norm_num) (by norm_num) (by norm_num)

end Dcf
