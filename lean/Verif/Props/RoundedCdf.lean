import Verif.Model.RoundedFormulas
import Verif.Props.CdfAccuracy
import Verif.Props.ImpliedVol
import Verif.Props.RoundedOptions
import Verif.Props.RoundedRates

/-! # The normal distribution function in floating point arithmetic: C181 -/

set_option linter.unusedSectionVars false
set_option linter.unusedSimpArgs false
set_option linter.unusedVariables false

namespace Dcf

open Spec

section
variable {p : ℕ} {rnd : ℝ → ℝ}

theorem unit_small (hp : 20 ≤ p) : 0 < (2 : ℝ) ^ (-(p : ℤ)) ∧ (2 : ℝ) ^ (-(p : ℤ)) ≤ 0.000001 := by
  refine ⟨by positivity, ?_⟩
  have h : (2 : ℝ) ^ (-(p : ℤ)) ≤ (2 : ℝ) ^ (-20 : ℤ) := zpow_le_zpow_right₀ (by norm_num) (by omega)
  exact h.trans (by norm_num)

/-- One step of the nested evaluation of a polynomial. -/
theorem horner_step {u : ℝ} (hu0 : 0 ≤ u) (hu : u ≤ 0.000001) (he : ∀ x, |rnd x - x| ≤ u * |x|) {r r' a a' c c' e A C B : ℝ} (hr0 : 0 ≤ r) (hr1 : r ≤ 1)
    (hr : |r' - r| ≤ 5 * u) (ha : |a' - a| ≤ e * u) (hA : |a| ≤ A) (hc : |c' - c| ≤ C * u) (hB : |c + r * a| ≤ B) (h1 : A ≤ 2) (h2 : C ≤ 2) (h3 : B ≤ 2)
    (h4 : e ≤ 60) : |rnd (r' * a') - r * a| ≤ (6 * A + e + 0.001) * u ∧ |rnd (c' + rnd (r' * a')) - (c + r * a)| ≤ (6 * A + e + C + B + 0.01) * u := by
  have hA0 := (abs_nonneg _).trans hA
  have s1 : |r' * a' - r * a| ≤ (5 * A + e + 0.0004) * u := by
    have e1 : r' * a' - r * a = (r' - r) * a + r * (a' - a) + (r' - r) * (a' - a) := by ring
    have m1 : |(r' - r) * a| ≤ 5 * u * A := by rw [abs_mul]; exact mul_le_mul hr hA (abs_nonneg _) (by positivity)
    have m2 : |r * (a' - a)| ≤ e * u := by
      rw [abs_mul, abs_of_nonneg hr0]
      exact (mul_le_of_le_one_left (abs_nonneg _) hr1).trans ha
    have m3 : |(r' - r) * (a' - a)| ≤ 5 * u * (60 * u) := by
      rw [abs_mul]; exact mul_le_mul hr (ha.trans (by gcongr)) (abs_nonneg _) (by positivity)
    rw [e1]
    refine (abs_add_three _ _ _).trans ?_
    nlinarith
  have hra : |r * a| ≤ A := by
    rw [abs_mul, abs_of_nonneg hr0]
    exact (mul_le_of_le_one_left (abs_nonneg _) hr1).trans hA
  have s2 : |r' * a'| ≤ A + 0.0001 := by
    have := abs_add_le (r' * a' - r * a) (r * a)
    rw [sub_add_cancel] at this
    have : (5 * A + e + 0.0004) * u ≤ (5 * 2 + 60 + 0.0004) * 0.000001 := by
      refine mul_le_mul (by linarith) hu hu0 (by norm_num)
    linarith
  have s3 : |rnd (r' * a') - r * a| ≤ (6 * A + e + 0.001) * u := by
    have := abs_add_le (rnd (r' * a') - r' * a') (r' * a' - r * a)
    rw [sub_add_sub_cancel] at this
    have k := he (r' * a')
    have k2 : u * |r' * a'| ≤ u * (A + 0.0001) := mul_le_mul_of_nonneg_left s2 hu0
    nlinarith
  refine ⟨s3, ?_⟩
  have s4 : |c' + rnd (r' * a') - (c + r * a)| ≤ (6 * A + e + C + 0.001) * u := by
    have := abs_add_le (c' - c) (rnd (r' * a') - r * a)
    rw [show c' - c + (rnd (r' * a') - r * a) = c' + rnd (r' * a') - (c + r * a) by ring] at this
    nlinarith
  have s5 : |c' + rnd (r' * a')| ≤ B + 0.0001 := by
    have := abs_add_le (c' + rnd (r' * a') - (c + r * a)) (c + r * a)
    rw [sub_add_cancel] at this
    have : (6 * A + e + C + 0.001) * u ≤ (6 * 2 + 60 + 2 + 0.001) * 0.000001 := by
      refine mul_le_mul (by linarith) hu hu0 (by norm_num)
    linarith
  have := abs_add_le (rnd (c' + rnd (r' * a')) - (c' + rnd (r' * a'))) (c' + rnd (r' * a') - (c + r * a))
  rw [sub_add_sub_cancel] at this
  have k := he (c' + rnd (r' * a'))
  have k2 : u * |c' + rnd (r' * a')| ≤ u * (B + 0.0001) := mul_le_mul_of_nonneg_left s5 hu0
  nlinarith

/-- The nested polynomial, computed at a nearby point. -/
theorem poly_error {u : ℝ} (hu0 : 0 ≤ u) (hu : u ≤ 0.000001) (he : ∀ x, |rnd x - x| ≤ u * |x|) {r r' : ℝ} (hr0 : 0 ≤ r) (hr1 : r ≤ 1) (hr : |r' - r| ≤ 5 * u) :
    |Rounded.cdfPoly rnd r' - cdfPoly r| ≤ 55 * u ∧ 0 ≤ rnd (rnd 0.31938153 + rnd (r' * rnd (rnd (-0.356563782) + rnd (r' * rnd (rnd 1.781477937 +
    rnd (r' * rnd (rnd (-1.821255978) + rnd (r' * rnd 1.330274429)))))))) := by
  have hl : ∀ c C : ℝ, |c| ≤ C → |rnd c - c| ≤ C * u := fun c C h => (he c).trans (by nlinarith)
  have t1 := (horner_step hu0 hu he (a := 1.330274429) (a' := rnd 1.330274429) (c := -1.821255978) (c' := rnd (-1.821255978)) (e := 1.331) (A := 1.331) (C := 1.822)
    (B := 1.822) hr0 hr1 hr (hl _ _ (by norm_num)) (by norm_num) (hl _ _ (by norm_num [abs_of_neg])) (abs_le.2 ⟨by nlinarith, by nlinarith⟩) (by norm_num) (by norm_num)
    (by norm_num) (by norm_num)).2
  have q1 : 0 ≤ r ^ 2 := sq_nonneg r
  have q2 : r ^ 2 ≤ 1 := by nlinarith
  have q3 : r ^ 3 ≤ r ^ 2 := by nlinarith
  have q4 : 0 ≤ r ^ 3 := by positivity
  have t2 := (horner_step hu0 hu he (a := -1.821255978 + r * 1.330274429) (c := 1.781477937) (c' := rnd 1.781477937) (e := 13) (A := 1.822) (C := 1.782)
    (B := 1.782) hr0 hr1 hr (t1.trans (by gcongr; norm_num)) (abs_le.2 ⟨by nlinarith, by nlinarith⟩) (hl _ _ (by norm_num)) (abs_le.2 ⟨by nlinarith, by nlinarith⟩)
    (by norm_num) (by norm_num) (by norm_num) (by norm_num)).2
  have t3 := (horner_step hu0 hu he (a := 1.781477937 + r * (-1.821255978 + r * 1.330274429)) (c := -0.356563782) (c' := rnd (-0.356563782)) (e := 27.6) (A := 1.782) (C := 0.357)
    (B := 0.94) hr0 hr1 hr (t2.trans (by gcongr; norm_num)) (abs_le.2 ⟨by nlinarith, by nlinarith⟩) (hl _ _ (by norm_num [abs_of_neg])) (abs_le.2 ⟨by
      nlinarith [mul_nonneg hr0 (sq_nonneg (r - 0.68))], by nlinarith [mul_nonneg hr0 (sub_nonneg.2 hr1), mul_nonneg (mul_nonneg hr0 (sub_nonneg.2 hr1)) hr0, mul_nonneg (mul_nonneg hr0 (sub_nonneg.2 hr1)) (sub_nonneg.2 hr1)]⟩)
    (by norm_num) (by norm_num) (by norm_num) (by norm_num)).2
  have b1 : -0.357 ≤ -0.356563782 + r * (1.781477937 + r * (-1.821255978 + r * 1.330274429)) := by nlinarith [mul_nonneg hr0 (sq_nonneg (r - 0.68))]
  have b2 : -0.356563782 + r * (1.781477937 + r * (-1.821255978 + r * 1.330274429)) ≤ 0.94 := by
    nlinarith [mul_nonneg hr0 (sub_nonneg.2 hr1), mul_nonneg (mul_nonneg hr0 (sub_nonneg.2 hr1)) hr0, mul_nonneg (mul_nonneg hr0 (sub_nonneg.2 hr1)) (sub_nonneg.2 hr1)]
  have b3 : 0.2 ≤ 0.31938153 + r * (-0.356563782 + r * (1.781477937 + r * (-1.821255978 + r * 1.330274429))) := by
    nlinarith [sq_nonneg (r * (r - 0.68)), sq_nonneg (r - 0.2), mul_nonneg hr0 (sub_nonneg.2 hr1)]
  have b4 : 0.31938153 + r * (-0.356563782 + r * (1.781477937 + r * (-1.821255978 + r * 1.330274429))) ≤ 1.26 := by nlinarith
  have t4 := (horner_step hu0 hu he (a := -0.356563782 + r * (1.781477937 + r * (-1.821255978 + r * 1.330274429))) (c := 0.31938153) (c' := rnd 0.31938153) (e := 39.7) (A := 0.94) (C := 0.32)
    (B := 1.26) hr0 hr1 hr (t3.trans (by gcongr; norm_num)) (abs_le.2 ⟨by linarith, b2⟩) (hl _ _ (by norm_num)) (abs_le.2 ⟨by linarith, b4⟩)
    (by norm_num) (by norm_num) (by norm_num) (by norm_num)).2
  have t5 := (horner_step hu0 hu he (a := 0.31938153 + r * (-0.356563782 + r * (1.781477937 + r * (-1.821255978 + r * 1.330274429)))) (c := 0) (c' := 0) (e := 47) (A := 1.26) (C := 0)
    (B := 1.26) hr0 hr1 hr (t4.trans (by gcongr; norm_num)) (abs_le.2 ⟨by linarith, b4⟩) (by simp) (abs_le.2 ⟨by nlinarith, by nlinarith⟩)
    (by norm_num) (by norm_num) (by norm_num) (by norm_num)).1
  refine ⟨t5.trans (by gcongr; norm_num), ?_⟩
  have := (abs_le.1 t4).1
  nlinarith


theorem ratio_error {u : ℝ} (hu0 : 0 ≤ u) (hu : u ≤ 0.000001) (he : ∀ x, |rnd x - x| ≤ u * |x|) {s y : ℝ} (hs : 0 ≤ s) (hy : |y - s| ≤ 2.001 * u * s) :
    |rnd (1 / rnd (1 + y)) - 1 / (1 + s)| ≤ 5 * u ∧ 0 < rnd (1 + y) := by
  have a1 : |1 + y - (1 + s)| ≤ 2.001 * u * (1 + s) := by
    rw [show 1 + y - (1 + s) = y - s by ring]; exact hy.trans (by nlinarith)
  have a2 : |1 + y| ≤ 1.001 * (1 + s) := by
    have := abs_add_le (1 + y - (1 + s)) (1 + s)
    rw [sub_add_cancel, abs_of_nonneg (show 0 ≤ 1 + s by linarith)] at this
    nlinarith
  have a3 : |rnd (1 + y) - (1 + s)| ≤ 3.01 * u * (1 + s) := by
    have := abs_add_le (rnd (1 + y) - (1 + y)) (1 + y - (1 + s))
    rw [sub_add_sub_cancel] at this
    have k := he (1 + y)
    have : u * |1 + y| ≤ u * (1.001 * (1 + s)) := mul_le_mul_of_nonneg_left a2 hu0
    nlinarith
  generalize rnd (1 + y) = m at *
  have hm : 0.99 * (1 + s) ≤ m := by have := (abs_le.1 a3).1; nlinarith
  have hm0 : 0 < m := by nlinarith
  refine ⟨?_, hm0⟩
  have h1 : 0 < 1 + s := by linarith
  have a4 : |1 / m - 1 / (1 + s)| ≤ 3.1 * u := by
    rw [div_sub_div _ _ hm0.ne' h1.ne', abs_div, abs_of_pos (mul_pos hm0 h1), div_le_iff₀ (mul_pos hm0 h1)]
    rw [show 1 * (1 + s) - m * 1 = -(m - (1 + s)) by ring, abs_neg]
    refine a3.trans ?_
    have : 0.99 ≤ m := by nlinarith
    have : 0.99 * (u * (1 + s)) ≤ m * (u * (1 + s)) := mul_le_mul_of_nonneg_right this (mul_nonneg hu0 h1.le)
    nlinarith
  have a5 : |1 / m| ≤ 1.02 := by
    rw [abs_of_pos (one_div_pos.2 hm0), div_le_iff₀ hm0]; nlinarith
  have := abs_add_le (rnd (1 / m) - 1 / m) (1 / m - 1 / (1 + s))
  rw [sub_add_sub_cancel] at this
  have k := he (1 / m)
  have : u * |1 / m| ≤ u * 1.02 := mul_le_mul_of_nonneg_left a5 hu0
  linarith

/-- A relative error in the exponent of a falling exponential is an absolute error of the same size. -/
theorem exp_falling {a z θ : ℝ} (hz : 0 ≤ z) (hθ0 : 0 ≤ θ) (hθ : θ ≤ 1 / 2) (h : |a + z| ≤ θ * z) : |Real.exp a - Real.exp (-z)| ≤ θ ∧ a ≤ 0 := by
  have h0 : 0 ≤ θ * z := (abs_nonneg _).trans h
  have ha : a ≤ -(z / 2) := by have := (abs_le.1 h).2; nlinarith
  refine ⟨?_, by linarith⟩
  have key : ∀ {x y : ℝ}, x ≤ -(z / 2) → |x - y| ≤ θ * z → Real.exp x - Real.exp y ≤ θ := by
    intro x y hx hxy
    have e : Real.exp y = Real.exp x * Real.exp (y - x) := by rw [← Real.exp_add]; ring_nf
    have h1 := Real.add_one_le_exp (y - x)
    have h2 : x - y ≤ θ * z := (le_abs_self _).trans hxy
    have h3 : Real.exp x ≤ Real.exp (-(z / 2)) := Real.exp_le_exp.2 hx
    have h4 : z * Real.exp (-(z / 2)) ≤ 1 := by
      have := Real.quadratic_le_exp_of_nonneg (show 0 ≤ z / 2 by linarith)
      rw [Real.exp_neg, ← div_eq_mul_inv, div_le_one (Real.exp_pos _)]
      nlinarith [sq_nonneg (z - 2)]
    have h5 : Real.exp x - Real.exp y ≤ Real.exp x * (θ * z) := by
      rw [e]
      nlinarith [Real.exp_pos x]
    have h6 : Real.exp x * (θ * z) ≤ Real.exp (-(z / 2)) * (θ * z) := mul_le_mul_of_nonneg_right h3 h0
    nlinarith
  refine abs_le.2 ⟨?_, key ha (by rwa [sub_neg_eq_add])⟩
  have := key (x := -z) (y := a) (by linarith) (by rw [abs_sub_comm, sub_neg_eq_add]; exact h)
  linarith


theorem mul_error {a a' b b' A B ea eb : ℝ} (ha : |a' - a| ≤ ea) (hb : |b' - b| ≤ eb) (hA : |a| ≤ A) (hB : |b| ≤ B) :
    |a' * b' - a * b| ≤ A * eb + B * ea + ea * eb := by
  rw [show a' * b' - a * b = a * (b' - b) + b * (a' - a) + (a' - a) * (b' - b) by ring]
  have m1 : |a * (b' - b)| ≤ A * eb := by rw [abs_mul]; exact mul_le_mul hA hb (abs_nonneg _) ((abs_nonneg _).trans hA)
  have m2 : |b * (a' - a)| ≤ B * ea := by rw [abs_mul]; exact mul_le_mul hB ha (abs_nonneg _) ((abs_nonneg _).trans hB)
  have m3 : |(a' - a) * (b' - b)| ≤ ea * eb := by rw [abs_mul]; exact mul_le_mul ha hb (abs_nonneg _) ((abs_nonneg _).trans ha)
  exact (abs_add_three _ _ _).trans (by linarith)

theorem rnd_error {u : ℝ} (hu0 : 0 ≤ u) (he : ∀ x, |rnd x - x| ≤ u * |x|) {y z e Z : ℝ} (h : |y - z| ≤ e) (hZ : |z| ≤ Z) : |rnd y - z| ≤ e + u * (Z + e) := by
  have h1 := abs_add_le (rnd y - y) (y - z)
  rw [sub_add_sub_cancel] at h1
  have h2 := abs_add_le (y - z) z
  rw [sub_add_cancel] at h2
  have h3 : u * |y| ≤ u * (Z + e) := mul_le_mul_of_nonneg_left (by linarith) hu0
  linarith [he y]

/-- The density, computed at a nearby point. -/
theorem pdf_error {u v : ℝ} (hu0 : 0 ≤ u) (hu : u ≤ 0.000001) (he : ∀ x, |rnd x - x| ≤ u * |x|) {exp : ℝ → ℝ} (hv : v ≤ 0.000001)
    (hexp : ∀ x, |exp x - Real.exp x| ≤ v * Real.exp x) {x d η : ℝ} (hη0 : 0 ≤ η) (hη : η ≤ 0.01) (h : |x - d| ≤ η * |d|) :
    |Rounded.normalPdf rnd exp x - normalPdf d| ≤ 1.8 * u + 0.81 * η + 0.4 * v := by
  have hv0 : 0 ≤ v := by
    have := (abs_nonneg _).trans (hexp 0)
    simpa using this
  have a1 : |rnd (rnd (-0.5 * x) * x) + x ^ 2 / 2| ≤ 2.001 * u * (x ^ 2 / 2) := by
    have k1 := he (-0.5 * x)
    have k2 := he (rnd (-0.5 * x) * x)
    generalize rnd (-0.5 * x) = y at *
    have m : |y * x + x ^ 2 / 2| ≤ u * (x ^ 2 / 2) := by
      rw [show y * x + x ^ 2 / 2 = (y - -0.5 * x) * x by ring, abs_mul]
      refine (mul_le_mul_of_nonneg_right k1 (abs_nonneg x)).trans (le_of_eq ?_)
      rw [abs_mul, show |(-0.5 : ℝ)| = 0.5 by norm_num [abs_of_neg]]
      linear_combination (0.5 * u) * abs_mul_abs_self x
    have m2 : |y * x| ≤ (1 + u) * (x ^ 2 / 2) := by
      have := abs_add_le (y * x + x ^ 2 / 2) (-(x ^ 2 / 2))
      rw [add_neg_cancel_right, abs_neg, abs_of_nonneg (show 0 ≤ x ^ 2 / 2 by positivity)] at this
      linarith
    have := abs_add_le (rnd (y * x) - y * x) (y * x + x ^ 2 / 2)
    rw [show rnd (y * x) - y * x + (y * x + x ^ 2 / 2) = rnd (y * x) + x ^ 2 / 2 by ring] at this
    have m3 : u * |y * x| ≤ u * ((1 + u) * (x ^ 2 / 2)) := mul_le_mul_of_nonneg_left m2 hu0
    nlinarith [mul_nonneg hu0 (show 0 ≤ x ^ 2 / 2 by positivity)]
  have a2 : |x ^ 2 / 2 - d ^ 2 / 2| ≤ 2.01 * η * (d ^ 2 / 2) := by
    rw [show x ^ 2 / 2 - d ^ 2 / 2 = ((x - d) ^ 2 + 2 * (x - d) * d) / 2 by ring, abs_div, abs_two]
    have m1 : |(x - d) ^ 2| ≤ (η * |d|) ^ 2 := by rw [abs_pow]; gcongr
    have m2 : |2 * (x - d) * d| ≤ 2 * (η * |d|) * |d| := by rw [abs_mul, abs_mul, abs_two]; gcongr
    have := abs_add_le ((x - d) ^ 2) (2 * (x - d) * d)
    have e1 : (η * |d|) ^ 2 = η ^ 2 * d ^ 2 := by rw [mul_pow, sq_abs]
    have e2 : 2 * (η * |d|) * |d| = 2 * η * d ^ 2 := by rw [← sq_abs d]; ring
    have : η ^ 2 * d ^ 2 ≤ 0.01 * η * d ^ 2 := by nlinarith [mul_nonneg hη0 (sq_nonneg d)]
    linarith
  unfold Rounded.normalPdf
  generalize rnd (rnd (-0.5 * x) * x) = a at *
  have hd0 : 0 ≤ d ^ 2 / 2 := by positivity
  have a3 : |a + d ^ 2 / 2| ≤ (2.1 * u + 2.01 * η) * (d ^ 2 / 2) := by
    have := abs_add_le (a + x ^ 2 / 2) (-(x ^ 2 / 2 - d ^ 2 / 2))
    rw [abs_neg, show a + x ^ 2 / 2 + -(x ^ 2 / 2 - d ^ 2 / 2) = a + d ^ 2 / 2 by ring] at this
    have m : x ^ 2 / 2 ≤ 1.03 * (d ^ 2 / 2) := by have := (abs_le.1 a2).2; nlinarith
    have m2 : 2.001 * u * (x ^ 2 / 2) ≤ 2.001 * u * (1.03 * (d ^ 2 / 2)) := mul_le_mul_of_nonneg_left m (by linarith)
    nlinarith [mul_nonneg hu0 hd0]
  obtain ⟨a4, a5⟩ := exp_falling hd0 (by positivity) (by linarith) a3
  have a6 := hexp a
  have a7 : Real.exp a ≤ 1 := Real.exp_le_one_iff.2 a5
  have a8 : |exp a - Real.exp (-(d ^ 2 / 2))| ≤ v + 2.1 * u + 2.01 * η := by
    have := abs_add_le (exp a - Real.exp a) (Real.exp a - Real.exp (-(d ^ 2 / 2)))
    rw [sub_add_sub_cancel] at this
    nlinarith
  have e0 : Real.exp (-(d ^ 2 / 2)) ≤ 1 := Real.exp_le_one_iff.2 (by linarith)
  have e1 := Real.exp_pos (-(d ^ 2 / 2))
  have hc := he 0.398942280401433
  rw [abs_of_pos (show (0 : ℝ) < 0.398942280401433 by norm_num)] at hc
  have b1 := mul_error hc a8 (A := 0.399) (B := 1) (by norm_num [abs_of_pos]) (by rw [abs_of_pos e1]; exact e0)
  have b2 := rnd_error hu0 he b1 (Z := 0.399) (by rw [abs_mul, abs_of_pos e1, abs_of_pos (by norm_num)]; nlinarith)
  have b3 : normalPdf d = 0.398942280401433 * Real.exp (-(d ^ 2 / 2)) := by
    simp only [normalPdf]
    rw [show -0.5 * d * d = -(d ^ 2 / 2) by ring]
  rw [b3]
  refine b2.trans ?_
  have w : v + 2.1 * u + 2.01 * η ≤ 0.03 := by linarith
  generalize hw : v + 2.1 * u + 2.01 * η = w' at *
  have w1 : u * w' ≤ 0.03 * u := by nlinarith
  have w2 : u * u ≤ 0.000001 * u := by nlinarith
  have w3 : u * (u * w') ≤ 0.000001 * u := by nlinarith
  nlinarith

/-- The upper tail, computed. -/
theorem tail_error {u v : ℝ} (hu0 : 0 ≤ u) (hu : u ≤ 0.000001) (he : ∀ x, |rnd x - x| ≤ u * |x|) {exp : ℝ → ℝ} (hv : v ≤ 0.000001)
    (hexp : ∀ x, |exp x - Real.exp x| ≤ v * Real.exp x) {x r' : ℝ} (hr : |r' - 1 / (1 + 0.2316419 * (|x|))| ≤ 5 * u) :
    |rnd (Rounded.normalPdf rnd exp x * Rounded.cdfPoly rnd r') - cdfTail (|x|)| ≤ 25 * u + 0.52 * v := by
  have hv0 : 0 ≤ v := by
    have := (abs_nonneg _).trans (hexp 0)
    simpa using this
  have hx := abs_nonneg x
  have r0 := (cdfRatio_pos hx).le
  have r1 : 1 / (1 + 0.2316419 * (|x|)) ≤ 1 := by rw [div_le_one (by positivity)]; linarith
  have h1 := (poly_error hu0 hu he r0 r1 hr).1
  have h2 := pdf_error hu0 hu he hv hexp (x := x) (d := x) (η := 0) le_rfl (by norm_num) (by simp)
  have h3 : |cdfPoly (1 / (1 + 0.2316419 * (|x|)))| ≤ 1.26 := by
    have a := cdfPoly_strictMono.monotone r1
    have b := cdfPoly_pos (cdfRatio_pos hx)
    rw [abs_of_pos b]
    refine a.trans ?_
    simp only [cdfPoly]; norm_num
  have h4 : |normalPdf x| ≤ 0.399 := by
    have e1 := Real.exp_pos (-0.5 * x * x)
    have e2 : Real.exp (-0.5 * x * x) ≤ 1 := Real.exp_le_one_iff.2 (by nlinarith [sq_nonneg x])
    simp only [normalPdf]
    rw [abs_mul, abs_of_pos e1, abs_of_pos (by norm_num)]
    nlinarith
  have h5 : cdfTail (|x|) = normalPdf x * cdfPoly (1 / (1 + 0.2316419 * (|x|))) := by
    simp only [cdfTail, normalPdf]
    rw [show -0.5 * |x| * |x| = -0.5 * x * x by rw [mul_assoc, abs_mul_abs_self]; ring]
  have h6 : |cdfTail (|x|)| ≤ 0.51 := by
    rw [abs_of_pos (cdfTail_pos hx)]
    have := cdfTail_lt_half hx
    linarith
  have h7 := mul_error h2 h1 h4 h3
  rw [← h5] at h7
  refine (rnd_error hu0 he h7 h6).trans ?_
  have w : 1.8 * u + 0.81 * 0 + 0.4 * v ≤ 0.00001 := by linarith
  have w0 : 0 ≤ 1.8 * u + 0.81 * 0 + 0.4 * v := by linarith
  generalize hw : 1.8 * u + 0.81 * 0 + 0.4 * v = w' at *
  have w1 : u * w' ≤ 0.00001 * u := by nlinarith
  have w2 : u * u ≤ 0.000001 * u := by nlinarith
  have w3 : u * (u * w') ≤ 0.000001 * u := by nlinarith
  nlinarith

/-- The ratio for arguments of either sign. -/
theorem ratio_near {u : ℝ} (hu0 : 0 ≤ u) (hu : u ≤ 0.000001) (he : ∀ x, |rnd x - x| ≤ u * |x|) {x : ℝ} {y : ℝ} (hy : y = rnd (rnd 0.2316419 * x) ∧ 0 ≤ x ∨
    y = -rnd (rnd 0.2316419 * x) ∧ x < 0) : |y - 0.2316419 * (|x|)| ≤ 2.001 * u * (0.2316419 * (|x|)) := by
  have k1 := he 0.2316419
  rw [abs_of_pos (show (0 : ℝ) < 0.2316419 by norm_num)] at k1
  have hx := abs_nonneg x
  have k2 : |rnd 0.2316419 * x - 0.2316419 * x| ≤ u * (0.2316419 * (|x|)) := by
    rw [← sub_mul, abs_mul, ← mul_assoc]
    exact mul_le_mul_of_nonneg_right k1 hx
  have k3 := rnd_error hu0 he k2 (Z := 0.2316419 * (|x|)) (by rw [abs_mul, abs_of_pos (by norm_num)])
  have k4 : |rnd (rnd 0.2316419 * x) - 0.2316419 * x| ≤ 2.001 * u * (0.2316419 * (|x|)) := by
    refine k3.trans ?_
    nlinarith [mul_nonneg hu0 hx]
  rcases hy with ⟨rfl, h⟩ | ⟨rfl, h⟩
  · rw [abs_of_nonneg h] at *; exact k4
  · rw [abs_of_neg h] at *
    rw [show -rnd (rnd 0.2316419 * x) - 0.2316419 * -x = -(rnd (rnd 0.2316419 * x) - 0.2316419 * x) by ring, abs_neg]
    exact k4

theorem cdf_near {u v : ℝ} (hu0 : 0 ≤ u) (hu : u ≤ 0.000001) (he : ∀ x, |rnd x - x| ≤ u * |x|) {exp : ℝ → ℝ} (hv : v ≤ 0.000001)
    (hexp : ∀ x, |exp x - Real.exp x| ≤ v * Real.exp x) (x : ℝ) : |Rounded.normalCdf rnd exp x - normalCdf x| ≤ 27 * u + v := by
  have hv0 : 0 ≤ v := by
    have := (abs_nonneg _).trans (hexp 0)
    simpa using this
  have hx := abs_nonneg x
  rcases lt_or_ge x 0 with h | h
  · have h1 := (ratio_error hu0 hu he (by positivity) (ratio_near hu0 hu he (Or.inr ⟨rfl, h⟩))).1
    have h2 := tail_error hu0 hu he hv hexp h1
    rw [normalCdf_neg h, ← abs_of_neg h]
    simp only [Rounded.normalCdf, h.not_ge, if_false, sub_eq_add_neg (1 : ℝ)]
    exact h2.trans (by linarith)
  · have h1 := (ratio_error hu0 hu he (by positivity) (ratio_near hu0 hu he (Or.inl ⟨rfl, h⟩))).1
    have h2 := tail_error hu0 hu he hv hexp h1
    rw [abs_of_nonneg h] at h2
    rw [normalCdf_nonneg h]
    simp only [Rounded.normalCdf, h, if_true]
    have h3 := rnd_error hu0 he (y := 1 - rnd (rnd (rnd 0.398942280401433 * exp (rnd (rnd (-0.5 * x) * x))) * Rounded.cdfPoly rnd (rnd (1 / rnd (1 + rnd (rnd 0.2316419 * x))))))
      (z := 1 - cdfTail x) (e := 25 * u + 0.52 * v) (Z := 1) (by rw [sub_sub_sub_cancel_left, abs_sub_comm]; exact h2) (by
        have a := cdfTail_pos h
        have b := cdfTail_lt_half h
        rw [abs_of_nonneg (by linarith)]; linarith)
    refine h3.trans ?_
    nlinarith

/-! ## C181 -/

/-- C181: without rounding these are the functions of the model. -/
theorem C181_unrounded (x : ℝ) : Rounded.normalPdf id Real.exp x = normalPdf x ∧ Rounded.normalCdf id Real.exp x = normalCdf x := by
  constructor
  · simp [Rounded.normalPdf, normalPdf]
  · simp [Rounded.normalCdf, normalCdf, Rounded.cdfPoly, cdfPoly]

/-- C181: the density is computed to a few units in the last place of one. -/
theorem C181_pdf (R : Rounding p rnd) (hp : 20 ≤ p) {exp : ℝ → ℝ} {v : ℝ} (hv : v ≤ 0.000001) (hexp : ∀ x, |exp x - Real.exp x| ≤ v * Real.exp x) (x : ℝ) :
    |Rounded.normalPdf rnd exp x - gaussPdf x| ≤ 0.0000000001 + 2 * (2 : ℝ) ^ (-(p : ℤ)) + v := by
  obtain ⟨h0, h1⟩ := unit_small hp
  have hv0 : 0 ≤ v := by
    have := (abs_nonneg _).trans (hexp 0)
    simpa using this
  have h2 := pdf_error h0.le h1 (R.err (by omega)) hv hexp (x := x) (d := x) (η := 0) le_rfl (by norm_num) (by simp)
  have h3 := abs_add_le (Rounded.normalPdf rnd exp x - normalPdf x) (normalPdf x - gaussPdf x)
  rw [sub_add_sub_cancel] at h3
  have := C101_pdf x
  linarith

/-- C181: so is the distribution function, for every argument: rounding adds next to nothing to the error of the approximation. -/
theorem C181_cdf (R : Rounding p rnd) (hp : 20 ≤ p) {exp : ℝ → ℝ} {v : ℝ} (hv : v ≤ 0.000001) (hexp : ∀ x, |exp x - Real.exp x| ≤ v * Real.exp x) (x : ℝ) :
    |Rounded.normalCdf rnd exp x - gaussCdf x| ≤ 0.00001 + 27 * (2 : ℝ) ^ (-(p : ℤ)) + v := by
  obtain ⟨h0, h1⟩ := unit_small hp
  have h2 := cdf_near h0.le h1 (R.err (by omega)) hv hexp x
  have h3 := abs_add_le (Rounded.normalCdf rnd exp x - normalCdf x) (normalCdf x - gaussCdf x)
  rw [sub_add_sub_cancel] at h3
  have := C101_cdf x
  linarith

/-- C181: computed probabilities are between zero and one. -/
theorem C181_range (R : Rounding p rnd) (hp : 20 ≤ p) {exp : ℝ → ℝ} {v : ℝ} (hv : v ≤ 0.000001) (hexp : ∀ x, |exp x - Real.exp x| ≤ v * Real.exp x) (x : ℝ) :
    0 ≤ Rounded.normalCdf rnd exp x ∧ Rounded.normalCdf rnd exp x ≤ 1 := by
  obtain ⟨h0, h1⟩ := unit_small hp
  have he := R.err (show 1 ≤ p by omega)
  have h2 := abs_le.1 (cdf_near h0.le h1 he hv hexp x)
  have hx := abs_nonneg x
  have hexp0 : ∀ x, 0 ≤ exp x := fun x => by
    have := (abs_le.1 (hexp x)).1
    nlinarith [Real.exp_pos x]
  have g0 : 0 ≤ rnd (rnd 0.398942280401433 * exp (rnd (rnd (-0.5 * x) * x))) := R.nonneg (mul_nonneg (R.nonneg (by norm_num)) (hexp0 _))
  have r1 : 1 / (1 + 0.2316419 * (|x|)) ≤ 1 := by rw [div_le_one (by positivity)]; linarith
  have tail : ∀ y : ℝ, (y = rnd (rnd 0.2316419 * x) ∧ 0 ≤ x ∨ y = -rnd (rnd 0.2316419 * x) ∧ x < 0) → 0 ≤ rnd (rnd (rnd 0.398942280401433 *
      exp (rnd (rnd (-0.5 * x) * x))) * Rounded.cdfPoly rnd (rnd (1 / rnd (1 + y)))) := by
    intro y hy
    obtain ⟨k1, k2⟩ := ratio_error h0.le h1 he (by positivity) (ratio_near h0.le h1 he hy)
    have k3 := (poly_error h0.le h1 he (cdfRatio_pos hx).le r1 k1).2
    exact R.nonneg (mul_nonneg g0 (R.nonneg (mul_nonneg (R.nonneg (one_div_pos.2 k2).le) k3)))
  have h5 := C70_range x
  rcases lt_or_ge x 0 with h | h
  · have t := tail _ (Or.inr ⟨rfl, h⟩)
    rw [normalCdf_neg h] at h2
    have := cdfTail_lt_half (x := -x) (by linarith)
    refine ⟨?_, by linarith⟩
    simpa only [Rounded.normalCdf, h.not_ge, if_false, sub_eq_add_neg (1 : ℝ)] using t
  · have t := tail _ (Or.inl ⟨rfl, h⟩)
    rw [normalCdf_nonneg h] at h2
    have := cdfTail_lt_half h
    refine ⟨by linarith, ?_⟩
    simp only [Rounded.normalCdf, h, if_true]
    exact R.le_of_le (by linarith) (IsFloat.one (by omega))

/-- C181: the two tails add up to one, the upper one being rounded. -/
theorem C181_symmetric (hs : Symmetric rnd) (exp : ℝ → ℝ) {x : ℝ} (h : 0 < x) : Rounded.normalCdf rnd exp x = rnd (1 - Rounded.normalCdf rnd exp (-x)) := by
  have e1 : rnd (rnd (-0.5 * -x) * -x) = rnd (rnd (-0.5 * x) * x) := by
    rw [show -0.5 * -x = -(-0.5 * x) by ring, hs]; ring_nf
  have e2 : rnd (rnd 0.2316419 * -x) = -rnd (rnd 0.2316419 * x) := by rw [mul_neg, hs]
  simp only [Rounded.normalCdf, h.le, if_true, show ¬ (0 ≤ -x) by linarith, if_false, e1, e2, sub_neg_eq_add]

end

end Dcf
