import Verif.Props.RoundedCdf

/-! # Closed option formulas in floating point arithmetic: C182 -/

set_option linter.unusedSectionVars false
set_option linter.unusedSimpArgs false
set_option linter.unusedVariables false

namespace Dcf

open Spec

section
variable {p : ℕ} {rnd : ℝ → ℝ}

/-- A relative error in its argument is an absolute error of the distribution function of at most the same size. -/
theorem cdf_scaled {x d η : ℝ} (hη0 : 0 ≤ η) (hη : η ≤ 1 / 2) (h : |x - d| ≤ η * |d|) : |gaussCdf x - gaussCdf d| ≤ η := by
  have key : ∀ c, |d| ≤ 2 * |c| → gaussPdf c * |d| ≤ 1 := by
    intro c hc
    have h1 : d ^ 2 / 8 ≤ c ^ 2 / 2 := by
      have : d ^ 2 ≤ (2 * |c|) ^ 2 := by rw [← sq_abs d]; gcongr
      rw [mul_pow, sq_abs] at this
      linarith
    have h2 : Real.exp (-c ^ 2 / 2) ≤ Real.exp (-(d ^ 2 / 8)) := Real.exp_le_exp.2 (by linarith)
    have h3 : |d| * Real.exp (-(d ^ 2 / 8)) ≤ 2 := by
      have := Real.add_one_le_exp (d ^ 2 / 8)
      rw [Real.exp_neg, ← div_eq_mul_inv, div_le_iff₀ (Real.exp_pos _)]
      have e : d ^ 2 = |d| ^ 2 := (sq_abs d).symm
      nlinarith [sq_nonneg (|d| - 2)]
    have h4 : (Real.sqrt (2 * Real.pi))⁻¹ ≤ 1 / 2 := by
      rw [inv_eq_one_div]
      exact one_div_le_one_div_of_le (by norm_num) (by have := sqrt_two_pi_bounds.1; linarith)
    have h5 : 0 ≤ (Real.sqrt (2 * Real.pi))⁻¹ := by positivity
    calc gaussPdf c * |d| = (Real.sqrt (2 * Real.pi))⁻¹ * (|d| * Real.exp (-c ^ 2 / 2)) := by simp only [gaussPdf]; ring
      _ ≤ (Real.sqrt (2 * Real.pi))⁻¹ * 2 := by
        refine mul_le_mul_of_nonneg_left (le_trans ?_ h3) h5
        exact mul_le_mul_of_nonneg_left h2 (abs_nonneg _)
      _ ≤ 1 := by linarith
  have hd := abs_nonneg d
  have fin : ∀ {y z : ℝ}, y < z → (∀ c, y < c → c < z → |d| ≤ 2 * |c|) → z - y ≤ η * |d| → |gaussCdf z - gaussCdf y| ≤ η := by
    intro y z hyz hc hlen
    obtain ⟨c, h1, h2, h3⟩ := mean_value hyz fun w _ _ => gaussCdf_deriv w
    have k := key c (hc c h1 h2)
    have k0 : 0 ≤ gaussPdf c := by simp only [gaussPdf]; positivity
    rw [h3, abs_of_nonneg (mul_nonneg k0 (by linarith))]
    calc gaussPdf c * (z - y) ≤ gaussPdf c * (η * |d|) := mul_le_mul_of_nonneg_left hlen k0
      _ = η * (gaussPdf c * |d|) := by ring
      _ ≤ η := mul_le_of_le_one_right hη0 k
  have hm : ∀ {w : ℝ}, |w - d| ≤ η * |d| → |d| ≤ 2 * |w| := by
    intro w hw
    have := abs_sub_abs_le_abs_sub d w
    rw [abs_sub_comm] at this
    nlinarith
  rcases lt_trichotomy x d with hx | rfl | hx
  · rw [abs_sub_comm]
    rw [abs_of_neg (by linarith)] at h
    exact fin hx (fun c h1 h2 => hm (by rw [abs_of_neg (by linarith)]; linarith)) (by linarith)
  · simpa using hη0
  · rw [abs_of_pos (by linarith)] at h
    exact fin hx (fun c h1 h2 => hm (by rw [abs_of_pos (by linarith)]; linarith)) h

theorem vol_near {u : ℝ} (hu0 : 0 ≤ u) (hu : u ≤ 0.000001) (he : ∀ x, |rnd x - x| ≤ u * |x|) {σ s : ℝ} (hσ : 0 < σ) (hs : 0 < s) :
    |rnd (σ * rnd s) - σ * s| ≤ 2.001 * u * (σ * s) := by
  have hv := mul_pos hσ hs
  have k := he s
  rw [abs_of_pos hs] at k
  have k1 : |σ * rnd s - σ * s| ≤ u * (σ * s) := by
    rw [← mul_sub, abs_mul, abs_of_pos hσ]
    nlinarith
  refine (rnd_error hu0 he k1 (abs_of_pos hv).le).trans ?_
  nlinarith [mul_nonneg hu0 hv.le]

theorem quot_near {u : ℝ} (hu0 : 0 ≤ u) (hu : u ≤ 0.000001) {m M V' V e : ℝ} (hV : 0 < V) (hV' : |V' - V| ≤ 2.001 * u * V) (hm : |m - M| ≤ e) :
    0 < V' ∧ |m / V' - M / V| ≤ 1.0001 * (e / V + 2.001 * u * |M / V|) := by
  have h1 := (abs_le.1 hV').1
  have hV0 : 0.99995 * V ≤ V' := by nlinarith
  have hp : 0 < V' := by nlinarith
  refine ⟨hp, ?_⟩
  have e0 : 0 ≤ e := (abs_nonneg _).trans hm
  have e1 : m / V' - M / V = ((m - M) - M / V * (V' - V)) / V' := by field_simp; ring
  rw [e1, abs_div, abs_of_pos hp, div_le_iff₀ hp]
  have h2 : |(m - M) - M / V * (V' - V)| ≤ e + |M / V| * (2.001 * u * V) := by
    refine (abs_sub _ _).trans ?_
    rw [abs_mul (M / V)]
    have := mul_le_mul_of_nonneg_left hV' (abs_nonneg (M / V))
    linarith
  refine h2.trans ?_
  have h3 : 0 ≤ e / V := by positivity
  have h4 : e = e / V * V := by field_simp
  have hX : 0 ≤ e / V + 2.001 * u * |M / V| := by positivity
  have h5 : e + |M / V| * (2.001 * u * V) = (e / V + 2.001 * u * |M / V|) * V := by rw [h4]; field_simp
  rw [h5]
  nlinarith


/-! ## C182 -/

/-- C182: without rounding these are the formulas of the model. -/
theorem C182_unrounded (t K F σ a : ℝ) :
    Rounded.normalPrice id Real.exp t K F σ = (normalFormula codeDist).price (.ok t) K F σ ∧
    Rounded.normalBinary id Real.exp t K F σ = (binaryNormalFormula codeDist).price (.ok t) K F σ ∧
    Rounded.logNormalPrice id Real.exp Real.log t K F σ = (logNormalFormula codeDist).price (.ok t) K F σ ∧
    Rounded.logNormalBinary id Real.exp Real.log t K F σ = (binaryLogNormalFormula codeDist).price (.ok t) K F σ ∧
    Rounded.displacedPrice id Real.exp Real.log a t K F σ = (displacedFormula codeDist a).price (.ok t) K F σ := by
  have hd : ∀ a b : ℝ, Rounded.div id a b = pyDiv a b := fun a b => by
    simp only [Rounded.div]
    cases pyDiv a b <;> rfl
  have hN : ∀ t K F σ, Rounded.normalD id t K F σ = normalD (.ok t) K F σ := by
    intro t K F σ
    simp only [Rounded.normalD, normalD, Rounded.volOfTime, volOfTime, hd, id, Py.ok_bind]
  have hL : ∀ t K F σ, Rounded.logNormalD id Real.log t K F σ = logNormalD (.ok t) K F σ := by
    intro t K F σ
    simp only [Rounded.logNormalD, logNormalD, Rounded.volOfTime, volOfTime, hd, id, Py.ok_bind, pyLog]
    refine congrArg _ (funext fun vol => congrArg _ (funext fun q => ?_))
    split_ifs <;> rfl
  have hc := fun x => (C181_unrounded x).2
  have hq := fun x => (C181_unrounded x).1
  have hP : ∀ K F, Rounded.logNormalPrice id Real.exp Real.log t K F σ = (logNormalFormula codeDist).price (.ok t) K F σ := by
    intro K F
    simp only [Rounded.logNormalPrice, logNormalFormula, hL, hc, id, codeDist]
  refine ⟨?_, ?_, hP K F, ?_, hP _ _⟩
  · simp only [Rounded.normalPrice, normalFormula, hN, hc, hq, id, codeDist]
  · simp only [Rounded.normalBinary, binaryNormalFormula, hN, hc, hq, id, codeDist]
  · simp only [Rounded.logNormalBinary, binaryLogNormalFormula, hL, hc, hq, id, codeDist]

theorem normalD_near (R : Rounding p rnd) (hp : 20 ≤ p) {t σ : ℝ} (ht : 0 < t) (hσ : 0 < σ) (K F : ℝ) : ∃ V d, Rounded.normalD rnd t K F σ = .ok (V, d) ∧
    |V - σ * Real.sqrt t| ≤ 2.001 * (2 : ℝ) ^ (-(p : ℤ)) * (σ * Real.sqrt t) ∧ |d - docD t K F σ| ≤ 4.1 * (2 : ℝ) ^ (-(p : ℤ)) * |docD t K F σ| := by
  obtain ⟨h0, h1⟩ := unit_small hp
  have he := R.err (show 1 ≤ p by omega)
  have hs := Real.sqrt_pos.2 ht
  have hV := vol_near h0.le h1 he hσ hs
  obtain ⟨hp', hq⟩ := quot_near h0.le h1 (mul_pos hσ hs) hV (he (F - K))
  refine ⟨rnd (σ * rnd (Real.sqrt t)), rnd (rnd (F - K) / rnd (σ * rnd (Real.sqrt t))), ?_, hV, ?_⟩
  · simp [Rounded.normalD, Rounded.volOfTime, pySqrt, ht.le, Rounded.div, pyDiv, hp'.ne']
  · have hx : (2 : ℝ) ^ (-(p : ℤ)) * |F - K| / (σ * Real.sqrt t) = (2 : ℝ) ^ (-(p : ℤ)) * |docD t K F σ| := by
      rw [docD, abs_div, abs_of_pos (mul_pos hσ hs)]; ring
    rw [hx] at hq
    refine (rnd_error h0.le he hq le_rfl).trans ?_
    change _ + _ * (|docD t K F σ| + _) ≤ _
    change 1.0001 * (_ + 2.001 * _ * |docD t K F σ|) + _ * (_ + 1.0001 * (_ + 2.001 * _ * |docD t K F σ|)) ≤ _
    have hD := abs_nonneg (docD t K F σ)
    generalize |docD t K F σ| = D at *
    generalize (2 : ℝ) ^ (-(p : ℤ)) = u at *
    have k := mul_nonneg h0.le hD
    nlinarith

/-- C182: prices in the normal model. -/
theorem C182_normal (R : Rounding p rnd) (hp : 20 ≤ p) {exp : ℝ → ℝ} {v : ℝ} (hv : v ≤ 0.000001) (hexp : ∀ x, |exp x - Real.exp x| ≤ v * Real.exp x) {t σ : ℝ}
    (ht : 0 < t) (hσ : 0 < σ) (K F : ℝ) : ∃ got want, Rounded.normalPrice rnd exp t K F σ = .ok got ∧ (normalFormula exactDist).price (.ok t) K F σ = .ok want ∧
    |got - want| ≤ (0.00001 + 35 * (2 : ℝ) ^ (-(p : ℤ)) + v) * |F - K| + (0.0000000001 + 8 * (2 : ℝ) ^ (-(p : ℤ)) + v) * (σ * Real.sqrt t) := by
  obtain ⟨V, d, hD, hV, hd⟩ := normalD_near R hp ht hσ K F
  have hc1 := C181_cdf R hp hv hexp d
  obtain ⟨h0, h1⟩ := unit_small hp
  have he := R.err (show 1 ≤ p by omega)
  have hv0 : 0 ≤ v := by
    have := (abs_nonneg _).trans (hexp 0)
    simpa using this
  refine ⟨_, _, by rw [Rounded.normalPrice, hD]; rfl, normal_price exactDist ht hσ.ne' K F, ?_⟩
  have hV0 : 0 < σ * Real.sqrt t := mul_pos hσ (Real.sqrt_pos.2 ht)
  have hM := he (F - K)
  simp only [exactDist]
  generalize (2 : ℝ) ^ (-(p : ℤ)) = u at *
  generalize docD t K F σ = D at *
  generalize σ * Real.sqrt t = W at *
  generalize F - K = M at *
  have c2 := cdf_scaled (by positivity) (by linarith) hd
  have c3 : |Rounded.normalCdf rnd exp d - gaussCdf D| ≤ 0.00001 + 31.1 * u + v := by
    have := abs_add_le (Rounded.normalCdf rnd exp d - gaussCdf d) (gaussCdf d - gaussCdf D)
    rw [sub_add_sub_cancel] at this
    linarith
  have c4 : |Rounded.normalPdf rnd exp d - gaussPdf D| ≤ 0.0000000001 + 5.2 * u + v := by
    have := abs_add_le (Rounded.normalPdf rnd exp d - normalPdf D) (normalPdf D - gaussPdf D)
    rw [sub_add_sub_cancel] at this
    have a := pdf_error h0.le h1 he hv hexp (by positivity) (by linarith) hd
    have b := C101_pdf D
    linarith
  have hΦ : |gaussCdf D| ≤ 1 := by rw [abs_of_pos (gaussCdf_pos D)]; exact (gaussCdf_lt_one D).le
  have hφ : |gaussPdf D| ≤ 0.4 := by
    have e2 : Real.exp (-D ^ 2 / 2) ≤ 1 := Real.exp_le_one_iff.2 (by nlinarith [sq_nonneg D])
    have h4 : (Real.sqrt (2 * Real.pi))⁻¹ ≤ 0.4 := by
      rw [inv_eq_one_div, div_le_iff₀ (by positivity)]
      have := sqrt_two_pi_bounds.1; linarith
    have h5 : 0 ≤ (Real.sqrt (2 * Real.pi))⁻¹ := by positivity
    simp only [gaussPdf]
    rw [abs_mul, abs_of_nonneg h5, abs_of_pos (Real.exp_pos _)]
    nlinarith [Real.exp_pos (-D ^ 2 / 2)]
  have hMn := abs_nonneg M
  have n1 : |rnd (rnd M * Rounded.normalCdf rnd exp d) - M * gaussCdf D| ≤ (0.00001 + 33.2 * u + v) * |M| := by
    refine (rnd_error h0.le he (mul_error hM c3 le_rfl hΦ) (Z := |M|) (by rw [abs_mul]; exact mul_le_of_le_one_right hMn hΦ)).trans ?_
    have : u * (0.00001 + 31.1 * u + v) ≤ 0.0001 * u := by nlinarith
    generalize hw : 0.00001 + 31.1 * u + v = w at *
    have w1 : |M| * w + 1 * (u * |M|) + u * |M| * w + u * (|M| + (|M| * w + 1 * (u * |M|) + u * |M| * w)) =
      (w + 2 * u + 2 * (u * w) + u * u + u * (u * w)) * |M| := by ring
    rw [w1]
    refine mul_le_mul_of_nonneg_right ?_ hMn
    nlinarith
  have n2 : |rnd (V * Rounded.normalPdf rnd exp d) - W * gaussPdf D| ≤ (0.0000000001 + 6.5 * u + v) * W := by
    refine (rnd_error h0.le he (mul_error hV c4 (abs_of_pos hV0).le hφ) (Z := 0.4 * W) (by rw [abs_mul, abs_of_pos hV0]; nlinarith)).trans ?_
    have : u * (0.0000000001 + 5.2 * u + v) ≤ 0.0001 * u := by nlinarith
    generalize hw : 0.0000000001 + 5.2 * u + v = w at *
    have w1 : W * w + 0.4 * (2.001 * u * W) + 2.001 * u * W * w + u * (0.4 * W + (W * w + 0.4 * (2.001 * u * W) + 2.001 * u * W * w)) =
      (w + 1.2004 * u + 3.001 * (u * w) + 0.8004 * (u * u) + 2.001 * (u * (u * w))) * W := by ring
    rw [w1]
    refine mul_le_mul_of_nonneg_right ?_ hV0.le
    nlinarith
  have n3 := abs_add_le (rnd (rnd M * Rounded.normalCdf rnd exp d) - M * gaussCdf D) (rnd (V * Rounded.normalPdf rnd exp d) - W * gaussPdf D)
  have n4 := rnd_error h0.le he (y := rnd (rnd M * Rounded.normalCdf rnd exp d) + rnd (V * Rounded.normalPdf rnd exp d)) (z := M * gaussCdf D + W * gaussPdf D)
    (e := (0.00001 + 33.2 * u + v) * |M| + (0.0000000001 + 6.5 * u + v) * W) (Z := |M| + 0.4 * W) (by
      rw [add_sub_add_comm]; linarith) (by
      refine (abs_add_le _ _).trans ?_
      rw [abs_mul, abs_mul, abs_of_pos hV0]
      nlinarith)
  refine n4.trans ?_
  have w1 : (0.00001 + 33.2 * u + v) * |M| ≤ 0.001 * |M| := mul_le_mul_of_nonneg_right (by linarith) hMn
  have w2 : (0.0000000001 + 6.5 * u + v) * W ≤ 0.001 * W := mul_le_mul_of_nonneg_right (by linarith) hV0.le
  have w3 : u * ((0.00001 + 33.2 * u + v) * |M|) ≤ u * (0.001 * |M|) := mul_le_mul_of_nonneg_left w1 h0.le
  have w4 : u * ((0.0000000001 + 6.5 * u + v) * W) ≤ u * (0.001 * W) := mul_le_mul_of_nonneg_left w2 h0.le
  have w5 := mul_nonneg h0.le hMn
  have w6 := mul_nonneg h0.le hV0.le
  nlinarith

/-- C182: prices of binary calls in the normal model, which are the deltas of calls. -/
theorem C182_normal_binary (R : Rounding p rnd) (hp : 20 ≤ p) {exp : ℝ → ℝ} {v : ℝ} (hv : v ≤ 0.000001) (hexp : ∀ x, |exp x - Real.exp x| ≤ v * Real.exp x) {t σ : ℝ}
    (ht : 0 < t) (hσ : 0 < σ) (K F : ℝ) : ∃ got want, Rounded.normalBinary rnd exp t K F σ = .ok got ∧
    (binaryNormalFormula exactDist).price (.ok t) K F σ = .ok want ∧ (normalFormula exactDist).delta (.ok t) K F σ = .ok (some want) ∧
    |got - want| ≤ 0.00001 + 32 * (2 : ℝ) ^ (-(p : ℤ)) + v ∧ 0 ≤ got ∧ got ≤ 1 := by
  obtain ⟨V, d, hD, hV, hd⟩ := normalD_near R hp ht hσ K F
  have hc1 := C181_cdf R hp hv hexp d
  obtain ⟨h0, h1⟩ := unit_small hp
  refine ⟨Rounded.normalCdf rnd exp d, gaussCdf (docD t K F σ), by rw [Rounded.normalBinary, hD]; rfl, ?_, ?_, ?_, C181_range R hp hv hexp d⟩
  · simp only [binaryNormalFormula, normalD_ok ht hσ.ne', Py.ok_bind, exactDist]
  · simp only [normalFormula, normalD_ok ht hσ.ne', Py.ok_bind, exactDist]
  have c2 := cdf_scaled (by positivity) (by linarith) hd
  have := abs_add_le (Rounded.normalCdf rnd exp d - gaussCdf d) (gaussCdf d - gaussCdf (docD t K F σ))
  rw [sub_add_sub_cancel] at this
  linarith


theorem black_steps {u : ℝ} (h0 : 0 ≤ u) (h1 : u ≤ 0.000001) (he : ∀ x, |rnd x - x| ≤ u * |x|) {v : ℝ} (hv0 : 0 ≤ v) (hv : v ≤ 0.000001) {a b W V D d : ℝ}
    (ha : 0 ≤ a) (hb : 0 ≤ b) (hW : 0 ≤ W) (hV : |V - W| ≤ 2.001 * u * W)
    (e7 : |d - D| ≤ 1.0001 * ((v + 1.1 * u) * a + 2.1 * u * b + 3.6 * u * W + 2.001 * u * |D|)) (hN : |D| ≤ a + W / 2) (hT : |D - W| ≤ a + W / 2) :
    |rnd d - D| ≤ (2 * v + 6 * u) * a + 3 * u * b + 9 * u * W ∧ |rnd (rnd d - V) - (D - W)| ≤ (2 * v + 6 * u) * a + 3 * u * b + 9 * u * W := by
  have ua := mul_nonneg h0 ha
  have ub := mul_nonneg h0 hb
  have uW := mul_nonneg h0 hW
  have va := mul_nonneg hv0 ha
  have a1 : u * (u * a) ≤ 0.000001 * (u * a) := mul_le_mul_of_nonneg_right h1 ua
  have a2 : u * (u * b) ≤ 0.000001 * (u * b) := mul_le_mul_of_nonneg_right h1 ub
  have a3 : u * (u * W) ≤ 0.000001 * (u * W) := mul_le_mul_of_nonneg_right h1 uW
  have a4 : u * (v * a) ≤ 0.000001 * (v * a) := mul_le_mul_of_nonneg_right h1 va
  have a5 : u * |D| ≤ u * (a + W / 2) := mul_le_mul_of_nonneg_left hN h0
  have e8 : |d - D| ≤ (1.01 * v + 3.3 * u) * a + 2.2 * u * b + 4.8 * u * W := by linarith
  have e9 : |rnd d - D| ≤ (1.1 * v + 4.4 * u) * a + 2.3 * u * b + 5.4 * u * W := by
    refine (rnd_error h0 he e8 hN).trans ?_
    linarith
  refine ⟨e9.trans (by linarith), ?_⟩
  have e10 : |rnd d - V - (D - W)| ≤ (1.1 * v + 4.4 * u) * a + 2.3 * u * b + 7.5 * u * W := by
    rw [sub_sub_sub_comm]
    refine (abs_sub _ _).trans ?_
    linarith
  refine (rnd_error h0 he e10 hT).trans ?_
  linarith

theorem black_numerator {u : ℝ} (h0 : 0 ≤ u) (h1 : u ≤ 0.000001) (he : ∀ x, |rnd x - x| ≤ u * |x|) {v : ℝ} (hv0 : 0 ≤ v) (hv : v ≤ 0.000001) {V W l m L : ℝ}
    (hW : 0 < W) (hV : |V - W| ≤ 2.001 * u * W) (hl1 : |m - L| ≤ 2 * u) (hl2 : |l - m| ≤ v * |m|) :
    |rnd (l + rnd (rnd (V ^ 2) / 2)) - (L + W ^ 2 / 2)| ≤ (v + 1.1 * u) * |L| + 2.1 * u + 3.6 * u * W ^ 2 := by
  have hLn := abs_nonneg L
  have e1 : |l - L| ≤ v * |L| + 2.001 * u := by
    have a := abs_add_le (l - m) (m - L)
    rw [sub_add_sub_cancel] at a
    have b := abs_add_le (m - L) L
    rw [sub_add_cancel] at b
    have c : v * |m| ≤ v * (|L| + 2 * u) := mul_le_mul_of_nonneg_left (by linarith) hv0
    nlinarith
  have e2 : |V ^ 2 - W ^ 2| ≤ 4.003 * u * W ^ 2 := by
    rw [pow_two, pow_two]
    refine (mul_error hV hV (abs_of_pos hW).le (abs_of_pos hW).le).trans ?_
    have : u * u ≤ 0.000001 * u := by nlinarith
    nlinarith [mul_pos hW hW]
  have hW2 : 0 < W ^ 2 := by positivity
  have e3 : |rnd (V ^ 2) / 2 - W ^ 2 / 2| ≤ 2.503 * u * W ^ 2 := by
    have a := rnd_error h0 he e2 (abs_of_pos hW2).le
    rw [← sub_div, abs_div, abs_two]
    have : u * u ≤ 0.000001 * u := by nlinarith
    nlinarith
  have e4 : |rnd (rnd (V ^ 2) / 2) - W ^ 2 / 2| ≤ 3.01 * u * W ^ 2 := by
    refine (rnd_error h0 he e3 (abs_of_pos (show 0 < W ^ 2 / 2 by linarith)).le).trans ?_
    have : u * u ≤ 0.000001 * u := by nlinarith
    nlinarith
  generalize rnd (rnd (V ^ 2) / 2) = h' at *
  have e5 : |l + h' - (L + W ^ 2 / 2)| ≤ v * |L| + 2.001 * u + 3.01 * u * W ^ 2 := by
    rw [add_sub_add_comm]
    exact (abs_add_le _ _).trans (by linarith)
  have hN : |L + W ^ 2 / 2| ≤ |L| + W ^ 2 / 2 := by
    refine (abs_add_le _ _).trans ?_
    rw [abs_of_pos (show 0 < W ^ 2 / 2 by linarith)]
  have uL := mul_nonneg h0 hLn
  have uW := mul_nonneg h0 hW2.le
  have vL := mul_nonneg hv0 hLn
  refine (rnd_error h0 he e5 hN).trans ?_
  have a1 : u * u ≤ 0.000001 * u := by nlinarith
  have a2 : u * (v * |L|) ≤ 0.000001 * (u * |L|) := by nlinarith
  have a3 : u * (u * W ^ 2) ≤ 0.000001 * (u * W ^ 2) := by nlinarith
  nlinarith

/-- The error of `d` and of `d - vol` in the formulas of Black: relative to the size of the logarithm and of the standard deviation, and of the rounding error of the
quotient of forward and strike. -/
noncomputable def logNormalSlack (u v t K F σ : ℝ) : ℝ := ((2 * v + 6 * u) * |Real.log (F / K)| + 3 * u) / (σ * Real.sqrt t) + 9 * u * (σ * Real.sqrt t)

theorem logNormalD_near (R : Rounding p rnd) (hp : 20 ≤ p) {log : ℝ → ℝ} {v : ℝ} (hv0 : 0 ≤ v) (hv : v ≤ 0.000001)
    (hlog : ∀ x, 0 < x → |log x - Real.log x| ≤ v * |Real.log x|) {t σ K F : ℝ} (ht : 0 < t) (hσ : 0 < σ) (hK : 0 < K) (hF : 0 < F) :
    ∃ V d, Rounded.logNormalD rnd log t K F σ = .ok (V, d) ∧ |d - docLogD t K F σ| ≤ logNormalSlack ((2 : ℝ) ^ (-(p : ℤ))) v t K F σ ∧
    |rnd (d - V) - (docLogD t K F σ - σ * Real.sqrt t)| ≤ logNormalSlack ((2 : ℝ) ^ (-(p : ℤ))) v t K F σ := by
  obtain ⟨h0, h1⟩ := unit_small hp
  have he := R.err (show 1 ≤ p by omega)
  have hs := Real.sqrt_pos.2 ht
  have hV := vol_near h0.le h1 he hσ hs
  have hW : 0 < σ * Real.sqrt t := mul_pos hσ hs
  have hFK : 0 < F / K := div_pos hF hK
  have hq := he (F / K)
  rw [abs_of_pos hFK] at hq
  have hq0 : 0 < rnd (F / K) := by have := (abs_le.1 hq).1; nlinarith
  have hl1 := log_near hq0 hFK (by linarith) hq
  have hl2 := hlog _ hq0
  have hDoc : docLogD t K F σ = (Real.log (F / K) + (σ * Real.sqrt t) ^ 2 / 2) / (σ * Real.sqrt t) := by
    rw [docLogD, mul_pow, Real.sq_sqrt ht.le]
  have hD : rnd (σ * rnd (Real.sqrt t)) ≠ 0 := (quot_near h0.le h1 hW hV (le_refl |(0 : ℝ) - 0|)).1.ne'
  refine ⟨rnd (σ * rnd (Real.sqrt t)), rnd (rnd (log (rnd (F / K)) + rnd (rnd (rnd (σ * rnd (Real.sqrt t)) ^ 2) / 2)) / rnd (σ * rnd (Real.sqrt t))), ?_, ?_⟩
  · simp [Rounded.logNormalD, Rounded.volOfTime, pySqrt, ht.le, Rounded.div, pyDiv, hD, hK.ne', hq0]
  rw [hDoc]
  unfold logNormalSlack
  generalize (2 : ℝ) ^ (-(p : ℤ)) = u at *
  generalize rnd (σ * rnd (Real.sqrt t)) = V at *
  generalize σ * Real.sqrt t = W at *
  generalize log (rnd (F / K)) = l at *
  generalize Real.log (rnd (F / K)) = m at *
  generalize Real.log (F / K) = L at *
  have hLn := abs_nonneg L
  have hW2 : 0 < W ^ 2 := by positivity
  have e6 := black_numerator h0.le h1 he hv0 hv hW hV hl1 hl2
  obtain ⟨-, e7⟩ := quot_near h0.le h1 hW hV e6
  have hNW : |(L + W ^ 2 / 2) / W| ≤ |L| / W + W / 2 := by
    rw [abs_div, abs_of_pos hW, div_le_iff₀ hW, add_mul, div_mul_cancel₀ _ hW.ne']
    refine (abs_add_le _ _).trans ?_
    rw [abs_of_pos (show 0 < W ^ 2 / 2 by linarith)]
    nlinarith
  have hx : ((v + 1.1 * u) * |L| + 2.1 * u + 3.6 * u * W ^ 2) / W = (v + 1.1 * u) * (|L| / W) + 2.1 * u * (1 / W) + 3.6 * u * W := by
    field_simp
  rw [hx] at e7
  have ha : 0 ≤ |L| / W := by positivity
  have hb : 0 < 1 / W := by positivity
  have hg : ((2 * v + 6 * u) * |L| + 3 * u) / W + 9 * u * W = (2 * v + 6 * u) * (|L| / W) + 3 * u * (1 / W) + 9 * u * W := by ring
  rw [hg]
  have hT : |(L + W ^ 2 / 2) / W - W| ≤ |L| / W + W / 2 := by
    rw [show (L + W ^ 2 / 2) / W - W = L / W - W / 2 by field_simp; ring]
    refine (abs_sub _ _).trans ?_
    rw [abs_div, abs_of_pos hW, abs_of_pos (show 0 < W / 2 by linarith)]
  exact black_steps h0.le h1 he hv0 hv ha hb.le hW.le hV e7 hNW hT

theorem gaussCdf_near {x y e : ℝ} (h : |x - y| ≤ e) : |gaussCdf x - gaussCdf y| ≤ e := by
  have h2 := abs_le.1 h
  rcases le_total x y with hx | hx
  · have a := gaussCdf_lip hx
    have b := gaussCdf_strictMono.monotone hx
    rw [abs_sub_comm, abs_of_nonneg (by linarith)]; linarith
  · have a := gaussCdf_lip hx
    have b := gaussCdf_strictMono.monotone hx
    rw [abs_of_nonneg (by linarith)]; linarith

/-- C182: prices in the log-normal model. -/
theorem C182_log_normal (R : Rounding p rnd) (hp : 20 ≤ p) {exp log : ℝ → ℝ} {v : ℝ} (hv : v ≤ 0.000001) (hexp : ∀ x, |exp x - Real.exp x| ≤ v * Real.exp x)
    (hlog : ∀ x, 0 < x → |log x - Real.log x| ≤ v * |Real.log x|) {t σ K F : ℝ} (ht : 0 < t) (hσ : 0 < σ) (hK : 0 < K) (hF : 0 < F) :
    ∃ got want, Rounded.logNormalPrice rnd exp log t K F σ = .ok got ∧ (logNormalFormula exactDist).price (.ok t) K F σ = .ok want ∧
    |got - want| ≤ (0.00001 + 30 * (2 : ℝ) ^ (-(p : ℤ)) + v + logNormalSlack ((2 : ℝ) ^ (-(p : ℤ))) v t K F σ) * (F + K) := by
  have hv0 : 0 ≤ v := by
    have := (abs_nonneg _).trans (hexp 0)
    simpa using this
  obtain ⟨V, d, hD, hd, hd2⟩ := logNormalD_near R hp hv0 hv hlog ht hσ hK hF
  have r1 := C181_range R hp hv hexp d
  have r2 := C181_range R hp hv hexp (rnd (d - V))
  have c1 := C181_cdf R hp hv hexp d
  have c2 := C181_cdf R hp hv hexp (rnd (d - V))
  have g1 := gaussCdf_near hd
  have g2 := gaussCdf_near hd2
  obtain ⟨h0, h1⟩ := unit_small hp
  have he := R.err (show 1 ≤ p by omega)
  refine ⟨_, _, by rw [Rounded.logNormalPrice, hD]; rfl, logNormal_price exactDist ht hσ.ne' (div_pos hF hK), ?_⟩
  simp only [exactDist]
  generalize docLogD t K F σ - σ * Real.sqrt t = E at *
  generalize docLogD t K F σ = D at *
  generalize rnd (d - V) = e at *
  generalize logNormalSlack ((2 : ℝ) ^ (-(p : ℤ))) v t K F σ = w at *
  generalize (2 : ℝ) ^ (-(p : ℤ)) = u at *
  have part : ∀ {c g G X : ℝ}, 0 < X → 0 ≤ c → c ≤ 1 → |c - g| ≤ 0.00001 + 27 * u + v → |g - G| ≤ w →
      |rnd (X * c) - X * G| ≤ (0.00001 + 28 * u + v + w) * X ∧ |rnd (X * c)| ≤ 1.01 * X := by
    intro c g G X hX hc0 hc1 h2 h3
    have k := he (X * c)
    rw [abs_of_nonneg (mul_nonneg hX.le hc0)] at k
    have k2 : u * (X * c) ≤ u * X := mul_le_mul_of_nonneg_left (mul_le_of_le_one_right hX.le hc1) h0.le
    constructor
    · have a := abs_add_le (rnd (X * c) - X * c) (X * (c - G))
      rw [show rnd (X * c) - X * c + X * (c - G) = rnd (X * c) - X * G by ring, abs_mul, abs_of_pos hX] at a
      have b := abs_add_le (c - g) (g - G)
      rw [sub_add_sub_cancel] at b
      have b2 : X * |c - G| ≤ X * (0.00001 + 27 * u + v + w) := mul_le_mul_of_nonneg_left (by linarith) hX.le
      nlinarith
    · have a := abs_add_le (rnd (X * c) - X * c) (X * c)
      rw [sub_add_cancel, abs_of_nonneg (mul_nonneg hX.le hc0)] at a
      nlinarith [mul_le_of_le_one_right hX.le hc1]
  obtain ⟨p1, p2⟩ := part hF r1.1 r1.2 c1 g1
  obtain ⟨q1, q2⟩ := part hK r2.1 r2.2 c2 g2
  have k := he (rnd (F * Rounded.normalCdf rnd exp d) - rnd (K * Rounded.normalCdf rnd exp e))
  have k2 : u * |rnd (F * Rounded.normalCdf rnd exp d) - rnd (K * Rounded.normalCdf rnd exp e)| ≤ u * (1.01 * F + 1.01 * K) :=
    mul_le_mul_of_nonneg_left ((abs_sub _ _).trans (by linarith)) h0.le
  generalize rnd (F * Rounded.normalCdf rnd exp d) = A at *
  generalize rnd (K * Rounded.normalCdf rnd exp e) = B at *
  rw [show rnd (A - B) - (F * gaussCdf D - K * gaussCdf E) = (rnd (A - B) - (A - B)) + (A - F * gaussCdf D) - (B - K * gaussCdf E) by ring]
  have t1 := abs_sub ((rnd (A - B) - (A - B)) + (A - F * gaussCdf D)) (B - K * gaussCdf E)
  have t2 := abs_add_le (rnd (A - B) - (A - B)) (A - F * gaussCdf D)
  have uF := mul_nonneg h0.le hF.le
  have uK := mul_nonneg h0.le hK.le
  linarith

/-- C182: prices of binary calls in the log-normal model, which are the deltas of calls. -/
theorem C182_log_normal_binary (R : Rounding p rnd) (hp : 20 ≤ p) {exp log : ℝ → ℝ} {v : ℝ} (hv : v ≤ 0.000001) (hexp : ∀ x, |exp x - Real.exp x| ≤ v * Real.exp x)
    (hlog : ∀ x, 0 < x → |log x - Real.log x| ≤ v * |Real.log x|) {t σ K F : ℝ} (ht : 0 < t) (hσ : 0 < σ) (hK : 0 < K) (hF : 0 < F) :
    ∃ got want, Rounded.logNormalBinary rnd exp log t K F σ = .ok got ∧ (binaryLogNormalFormula exactDist).price (.ok t) K F σ = .ok want ∧
    (logNormalFormula exactDist).delta (.ok t) K F σ = .ok (some want) ∧
    |got - want| ≤ 0.00001 + 27 * (2 : ℝ) ^ (-(p : ℤ)) + v + logNormalSlack ((2 : ℝ) ^ (-(p : ℤ))) v t K F σ ∧ 0 ≤ got ∧ got ≤ 1 := by
  have hv0 : 0 ≤ v := by
    have := (abs_nonneg _).trans (hexp 0)
    simpa using this
  obtain ⟨V, d, hD, hd, hd2⟩ := logNormalD_near R hp hv0 hv hlog ht hσ hK hF
  have c1 := C181_cdf R hp hv hexp d
  have g1 := gaussCdf_near hd
  refine ⟨Rounded.normalCdf rnd exp d, gaussCdf (docLogD t K F σ), by rw [Rounded.logNormalBinary, hD]; rfl, ?_, ?_, ?_, C181_range R hp hv hexp d⟩
  · simp only [binaryLogNormalFormula, logNormalD_ok ht hσ.ne' (div_pos hF hK), Py.ok_bind, exactDist]
  · simp only [logNormalFormula, logNormalD_ok ht hσ.ne' (div_pos hF hK), Py.ok_bind, exactDist]
  have := abs_add_le (Rounded.normalCdf rnd exp d - gaussCdf d) (gaussCdf d - gaussCdf (docLogD t K F σ))
  rw [sub_add_sub_cancel] at this
  linarith

/-- C182: with 53 bits and all but extreme inputs the error is that of the approximated distribution function. -/
theorem C182_double (R : Rounding 53 rnd) {exp log : ℝ → ℝ} (hexp : ∀ x, |exp x - Real.exp x| ≤ 2 ^ (-50 : ℤ) * Real.exp x)
    (hlog : ∀ x, 0 < x → |log x - Real.log x| ≤ 2 ^ (-50 : ℤ) * |Real.log x|) {t σ K F : ℝ} (ht : 0 < t) (hσ : 0 < σ) (hK : 0 < K) (hF : 0 < F)
    (h1 : 0.0001 ≤ σ * Real.sqrt t) (h2 : σ * Real.sqrt t ≤ 1000) (h3 : |Real.log (F / K)| ≤ 10) :
    ∃ got want, Rounded.logNormalPrice rnd exp log t K F σ = .ok got ∧ (logNormalFormula exactDist).price (.ok t) K F σ = .ok want ∧
    |got - want| ≤ 0.00001001 * (F + K) := by
  obtain ⟨got, want, hg, hw, h⟩ := C182_log_normal R (by norm_num) (by norm_num) hexp hlog ht hσ hK hF
  refine ⟨got, want, hg, hw, h.trans (mul_le_mul_of_nonneg_right ?_ (by linarith))⟩
  have hs : logNormalSlack ((2 : ℝ) ^ (-((53 : ℕ) : ℤ))) (2 ^ (-50 : ℤ)) t K F σ ≤ 0.000000001 := by
    unfold logNormalSlack
    have a : ((2 * (2 : ℝ) ^ (-50 : ℤ) + 6 * (2 : ℝ) ^ (-((53 : ℕ) : ℤ))) * |Real.log (F / K)| + 3 * (2 : ℝ) ^ (-((53 : ℕ) : ℤ))) / (σ * Real.sqrt t) ≤ 0.0000000005 := by
      rw [div_le_iff₀ (mul_pos hσ (Real.sqrt_pos.2 ht))]
      have e : (2 * (2 : ℝ) ^ (-50 : ℤ) + 6 * (2 : ℝ) ^ (-((53 : ℕ) : ℤ))) * |Real.log (F / K)| ≤ (2 * (2 : ℝ) ^ (-50 : ℤ) + 6 * (2 : ℝ) ^ (-((53 : ℕ) : ℤ))) * 10 :=
        mul_le_mul_of_nonneg_left h3 (by positivity)
      norm_num at e ⊢
      linarith
    have b : 9 * (2 : ℝ) ^ (-((53 : ℕ) : ℤ)) * (σ * Real.sqrt t) ≤ 9 * (2 : ℝ) ^ (-((53 : ℕ) : ℤ)) * 1000 := mul_le_mul_of_nonneg_left h2 (by positivity)
    norm_num at a b ⊢
    linarith
  norm_num at hs ⊢
  linarith


/-! ## Examples -/

theorem exact_exp (x : ℝ) : |Real.exp x - Real.exp x| ≤ 0 * Real.exp x := by simp

theorem exact_log (x : ℝ) (h : 0 < x) : |Real.log x - Real.log x| ≤ 0 * |Real.log x| := by simp

example : ∃ rnd : ℝ → ℝ, Rounding 53 rnd ∧ Symmetric rnd ∧ |Rounded.normalPdf rnd Real.exp 2 - gaussPdf 2| ≤ 0.0000000001 + 2 * (2 : ℝ) ^ (-(53 : ℤ)) + 0 ∧
    |Rounded.normalCdf rnd Real.exp 2 - gaussCdf 2| ≤ 0.00001 + 27 * (2 : ℝ) ^ (-(53 : ℤ)) + 0 ∧ 0 ≤ Rounded.normalCdf rnd Real.exp 2 ∧
    Rounded.normalCdf rnd Real.exp 2 = rnd (1 - Rounded.normalCdf rnd Real.exp (-2)) := by
  obtain ⟨rnd, R, hs, -⟩ := exists_symmetric (p := 53) (by norm_num)
  exact ⟨rnd, R, hs, C181_pdf R (by norm_num) (by norm_num) exact_exp 2, C181_cdf R (by norm_num) (by norm_num) exact_exp 2,
    (C181_range R (by norm_num) (by norm_num) exact_exp 2).1, C181_symmetric hs Real.exp (by norm_num)⟩

example := C181_unrounded 2
example := C182_unrounded 1 90 100 (1 / 5) 10
example (R : Rounding 53 rnd) := C182_normal R (by norm_num) (v := 0) (by norm_num) exact_exp (t := 1) (σ := 5) (by norm_num) (by norm_num) 90 100
example (R : Rounding 53 rnd) := C182_normal_binary R (by norm_num) (v := 0) (by norm_num) exact_exp (t := 1) (σ := 5) (by norm_num) (by norm_num) 90 100
example (R : Rounding 53 rnd) := C182_log_normal R (by norm_num) (v := 0) (by norm_num) exact_exp exact_log (t := 1) (σ := 1 / 5) (K := 90) (F := 100) (by norm_num)
  (by norm_num) (by norm_num) (by norm_num)
example (R : Rounding 53 rnd) := C182_log_normal_binary R (by norm_num) (v := 0) (by norm_num) exact_exp exact_log (t := 1) (σ := 1 / 5) (K := 90) (F := 100)
  (by norm_num) (by norm_num) (by norm_num) (by norm_num)

example (R : Rounding 53 rnd) : ∃ got want, Rounded.logNormalPrice rnd Real.exp Real.log 1 100 100 (1 / 5) = .ok got ∧
    (logNormalFormula exactDist).price (.ok 1) 100 100 (1 / 5) = .ok want ∧ |got - want| ≤ 0.00001001 * (100 + 100) :=
  C182_double R (fun x => by simp; positivity) (fun x _ => by simp) (by norm_num) (by norm_num) (by norm_num) (by norm_num) (by norm_num) (by norm_num) (by norm_num)

end

end Dcf
