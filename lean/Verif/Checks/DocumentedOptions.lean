import Verif.Checks.DocumentedValues
import Mathlib.Analysis.SpecialFunctions.Log.Deriv

/-!
# Documented option prices

No claim rests on this file.  It compares the model with the program: `dcf/cashflows/payoffs.py` lines 190-213 print the price of a call and of a put in a
log-normal model, the value of the model agrees with them.
-/

namespace Dcf

/-- Polynomials do not spread errors much. -/
theorem documented_poly {u v : ℝ} (hu : 0 ≤ u) (hu' : u ≤ 1) (hv : 0 ≤ v) (hv' : v ≤ 1) : |cdfPoly u - cdfPoly v| ≤ 30 * |u - v| := by
  have hp : ∀ n : ℕ, |u ^ n - v ^ n| ≤ |u - v| * n := by
    intro n
    refine (abs_pow_sub_pow_le u v n).trans ?_
    have hm : max |u| |v| ≤ 1 := by simp [abs_of_nonneg, *]
    have : max |u| |v| ^ (n - 1) ≤ 1 := pow_le_one₀ (by positivity) hm
    nlinarith [mul_nonneg (abs_nonneg (u - v)) (Nat.cast_nonneg (α := ℝ) n)]
  have h1 := abs_le.1 (hp 1)
  have h2 := abs_le.1 (hp 2)
  have h3 := abs_le.1 (hp 3)
  have h4 := abs_le.1 (hp 4)
  have h5 := abs_le.1 (hp 5)
  have e : cdfPoly u - cdfPoly v = 0.31938153 * (u ^ 1 - v ^ 1) - 0.356563782 * (u ^ 2 - v ^ 2) + 1.781477937 * (u ^ 3 - v ^ 3) -
      1.821255978 * (u ^ 4 - v ^ 4) + 1.330274429 * (u ^ 5 - v ^ 5) := by
    simp only [cdfPoly]; ring
  rw [e, abs_le]
  have := abs_nonneg (u - v)
  push_cast at h1 h2 h3 h4 h5
  constructor <;> norm_num only <;> linarith [h1.1, h1.2, h2.1, h2.2, h3.1, h3.2, h4.1, h4.2, h5.1, h5.2]

theorem documented_poly_bound {u : ℝ} (hu : 0 ≤ u) (hu' : u ≤ 1) : |cdfPoly u| ≤ 30 := by
  have h := documented_poly hu hu' le_rfl zero_le_one
  have e : cdfPoly 0 = 0 := by simp [cdfPoly]
  rw [e, sub_zero, sub_zero, abs_of_nonneg hu] at h
  linarith

theorem documented_exp_lipschitz {a b : ℝ} (ha : a ≤ 0) (hb : b ≤ 0) : |Real.exp a - Real.exp b| ≤ |a - b| := by
  wlog hab : a ≤ b generalizing a b
  · rw [abs_sub_comm, abs_sub_comm a]; exact this hb ha (le_of_not_ge hab)
  have h1 : Real.exp b ≤ 1 := Real.exp_le_one_iff.2 hb
  have h2 := Real.add_one_le_exp (a - b)
  have h3 : Real.exp a = Real.exp b * Real.exp (a - b) := by rw [← Real.exp_add]; congr 1; ring
  have h4 := Real.exp_le_exp.2 hab
  rw [abs_of_nonpos (by linarith), abs_of_nonpos (by linarith), h3]
  nlinarith [Real.exp_pos b]

/-- `normal_cdf` at negative numbers between `-2` and `0`, by a number nearby. -/
theorem documented_cdf {x y : ℝ} (hx : x < 0) (hx' : -2 ≤ x) (hy : y < 0) (hy' : -2 ≤ y) :
    |normalCdf x - 0.398942280401433 * Real.exp (-0.5 * y * y) * cdfPoly (1 / (1 - 0.2316419 * y))| ≤ 100 * |x - y| := by
  rw [normalCdf, if_neg (not_le.2 hx)]
  have hu : ∀ z : ℝ, z < 0 → 0 ≤ 1 / (1 - 0.2316419 * z) ∧ 1 / (1 - 0.2316419 * z) ≤ 1 := by
    intro z hz
    have : 1 ≤ 1 - 0.2316419 * z := by nlinarith
    exact ⟨by positivity, by rw [div_le_one (by linarith)]; exact this⟩
  have hd : |1 / (1 - 0.2316419 * x) - 1 / (1 - 0.2316419 * y)| ≤ |x - y| := by
    have h1 : 1 ≤ 1 - 0.2316419 * x := by nlinarith
    have h2 : 1 ≤ 1 - 0.2316419 * y := by nlinarith
    have : 1 / (1 - 0.2316419 * x) - 1 / (1 - 0.2316419 * y) = (x - y) * (0.2316419 / ((1 - 0.2316419 * x) * (1 - 0.2316419 * y))) := by
      field_simp; ring
    rw [this, abs_mul]
    refine mul_le_of_le_one_right (abs_nonneg _) ?_
    rw [abs_of_nonneg (by positivity), div_le_one (by positivity)]
    nlinarith
  have hp := (documented_poly (hu x hx).1 (hu x hx).2 (hu y hy).1 (hu y hy).2).trans (mul_le_mul_of_nonneg_left hd (by norm_num))
  have hb := documented_poly_bound (hu x hx).1 (hu x hx).2
  have he : |Real.exp (-0.5 * x * x) - Real.exp (-0.5 * y * y)| ≤ 2 * |x - y| := by
    refine (documented_exp_lipschitz (by nlinarith) (by nlinarith)).trans ?_
    have : -0.5 * x * x - -0.5 * y * y = (x - y) * (-(x + y) / 2) := by ring
    rw [this, abs_mul, mul_comm]
    refine mul_le_mul_of_nonneg_right ?_ (abs_nonneg _)
    rw [abs_of_nonneg (by linarith)]; linarith
  have h1 : Real.exp (-0.5 * y * y) ≤ 1 := Real.exp_le_one_iff.2 (by nlinarith)
  set A := Real.exp (-0.5 * x * x)
  set B := Real.exp (-0.5 * y * y)
  set p := cdfPoly (1 / (1 - 0.2316419 * x))
  set q := cdfPoly (1 / (1 - 0.2316419 * y))
  have hB : 0 ≤ B := (Real.exp_pos _).le
  have e : 0.398942280401433 * A * p - 0.398942280401433 * B * q = 0.398942280401433 * ((A - B) * p + B * (p - q)) := by ring
  rw [e, abs_mul, abs_of_pos (by norm_num : (0 : ℝ) < 0.398942280401433)]
  have t1 : |(A - B) * p| ≤ 2 * |x - y| * 30 := by rw [abs_mul]; gcongr
  have t2 : |B * (p - q)| ≤ 1 * (30 * |x - y|) := by rw [abs_mul, abs_of_nonneg hB]; gcongr
  have := abs_add_le ((A - B) * p) (B * (p - q))
  have := abs_nonneg (x - y)
  norm_num only
  linarith

/-- An exponential by its series, an error of less than `1e-11`. -/
theorem documented_near {a : ℝ} (ha : a ≤ 0) (ha' : -1.5 ≤ a) : |Real.exp a - documented_series (a / 2) ^ 2| ≤ 1e-11 := by
  have hx : |a / 2| ≤ 0.75 := by rw [abs_le]; constructor <;> linarith
  have h : |Real.exp (a / 2) - documented_series (a / 2)| ≤ 4.2e-12 := by
    refine (documented_exp (hx.trans (by norm_num))).trans ?_
    calc |a / 2| ^ 13 * (14 / (6227020800 * 13)) ≤ 0.75 ^ 13 * (14 / (6227020800 * 13)) := by gcongr
      _ ≤ 4.2e-12 := by norm_num
  have h1 : Real.exp (a / 2) ≤ 1 := Real.exp_le_one_iff.2 (by linarith)
  have h0 := Real.exp_pos (a / 2)
  have e : Real.exp a = Real.exp (a / 2) ^ 2 := by rw [← Real.exp_nat_mul]; congr 1; push_cast; ring
  have f : Real.exp (a / 2) ^ 2 - documented_series (a / 2) ^ 2 = (Real.exp (a / 2) - documented_series (a / 2)) * (Real.exp (a / 2) + documented_series (a / 2)) := by
    ring
  rw [e, f, abs_mul]
  have g := abs_le.1 h
  have k : |Real.exp (a / 2) + documented_series (a / 2)| ≤ 2.1 := by rw [abs_le]; constructor <;> norm_num at g ⊢ <;> linarith [g.1, g.2]
  calc |Real.exp (a / 2) - documented_series (a / 2)| * |Real.exp (a / 2) + documented_series (a / 2)| ≤ 4.2e-12 * 2.1 := by gcongr
    _ ≤ 1e-11 := by norm_num

/-- `log(10/11)` -/
theorem documented_log : |20 * Real.log (10 / 11) + 0.275 - -1.631203596086497| ≤ 1e-14 := by
  have h := Real.abs_log_sub_add_sum_range_le (x := 1 / 11) (by norm_num [abs_of_pos]) 16
  norm_num [Finset.sum_range_succ, abs_of_pos] at h
  have g := abs_le.1 h
  rw [abs_le]
  norm_num at g ⊢
  constructor <;> linarith [g.1, g.2]

/-- The number `d` of the log-normal formulas. -/
theorem documented_d : Real.log (100 * Real.exp (0.25 * 0.05) / 110) = Real.log (10 / 11) + 0.0125 := by
  rw [show 100 * Real.exp (0.25 * 0.05) / 110 = (10 / 11) * Real.exp (0.25 * 0.05) by ring, Real.log_mul (by norm_num) (Real.exp_ne_zero _), Real.log_exp]
  norm_num

theorem documented_cdf_d : |normalCdf (20 * Real.log (10 / 11) + 0.275) - 0.05142367174314| ≤ 5e-12 := by
  have hl := abs_le.1 documented_log
  have h := documented_cdf (x := 20 * Real.log (10 / 11) + 0.275) (y := -1.631203596086497) (by norm_num at hl ⊢; linarith) (by norm_num at hl ⊢; linarith) (by norm_num) (by norm_num)
  have h' := h.trans (mul_le_mul_of_nonneg_left documented_log (by norm_num))
  have k := abs_le.1 (documented_near (a := -0.5 * -1.631203596086497 * -1.631203596086497) (by norm_num) (by norm_num))
  have h'' := abs_le.1 h'
  norm_num [documented_series, Finset.sum_range_succ, Nat.factorial, cdfPoly] at h'' k ⊢
  rw [abs_le]
  constructor <;> norm_num <;> linarith

theorem documented_cdf_d' : |normalCdf (20 * Real.log (10 / 11) + 0.225) - 0.046361661671546| ≤ 5e-12 := by
  have hl := abs_le.1 documented_log
  have h := documented_cdf (x := 20 * Real.log (10 / 11) + 0.225) (y := -1.681203596086497) (by norm_num at hl ⊢; linarith) (by norm_num at hl ⊢; linarith) (by norm_num) (by norm_num)
  have e : 20 * Real.log (10 / 11) + 0.225 - -1.681203596086497 = 20 * Real.log (10 / 11) + 0.275 - -1.631203596086497 := by ring
  rw [e] at h
  have h' := h.trans (mul_le_mul_of_nonneg_left documented_log (by norm_num))
  have k := abs_le.1 (documented_near (a := -0.5 * -1.681203596086497 * -1.681203596086497) (by norm_num) (by norm_num))
  have h'' := abs_le.1 h'
  norm_num [documented_series, Finset.sum_range_succ, Nat.factorial, cdfPoly] at h'' k ⊢
  rw [abs_le]
  constructor <;> norm_num <;> linarith

/-- The model of lines 193-195: forwards `lambda t: 100.0 * exp(t * 0.05)`, a volatility of 10%. -/
noncomputable def documented_model : OptModel ℝ :=
  ⟨some 0, .fn fun t => .ok (100 * Real.exp (t * 0.05)), .fn (fun _ => .ok 0.1) none, none, false, logNormalFormula codeDist⟩

theorem documented_price : (logNormalFormula codeDist).price (.ok 0.25) 110 (100 * Real.exp (0.25 * 0.05)) 0.1 =
    .ok (100 * Real.exp (0.25 * 0.05) * normalCdf (20 * Real.log (10 / 11) + 0.275) - 110 * normalCdf (20 * Real.log (10 / 11) + 0.225)) := by
  have hs : Real.sqrt 0.25 = 0.5 := by rw [show (0.25 : ℝ) = 0.5 ^ 2 by norm_num]; exact Real.sqrt_sq (by norm_num)
  have hl := documented_d
  have h0 : (0 : ℝ) < 100 * Real.exp (0.25 * 0.05) / 110 := by positivity
  have hv : volOfTime (.ok 0.25) 0.1 = .ok 0.05 := by
    simp only [volOfTime, Py.ok_bind, pySqrt]
    rw [if_pos (by norm_num), Py.ok_bind, hs]
    norm_num
  have hd : logNormalD (.ok 0.25) 110 (100 * Real.exp (0.25 * 0.05)) 0.1 = .ok (0.05, 20 * Real.log (10 / 11) + 0.275) := by
    simp only [logNormalD, hv, Py.ok_bind, pyDiv, pyLog]
    rw [if_neg (by norm_num), Py.ok_bind, if_pos h0, Py.ok_bind, if_neg (by norm_num), Py.ok_bind, hl]
    congr 2
    norm_num
    ring
  simp only [logNormalFormula, hd, Py.ok_bind, codeDist]
  congr 4
  norm_num
  ring

/-- Lines 190-213: a call and a put with strike 110. -/
example : ∃ call put, (PayOff.option ⟨0.25, 1, some 110, false⟩ : PayOff ℝ FloatPeriod).eval floatCal (.model documented_model) = .ok call ∧
    |call - 0.10726740675017865| ≤ 2e-9 ∧
    (PayOff.option ⟨0.25, 1, some 110, true⟩ : PayOff ℝ FloatPeriod).eval floatCal (.model documented_model) = .ok put ∧ |put - 8.849422252686733| ≤ 2e-9 := by
  have hd : documented_model.details floatCal 0.25 (some 110) = .ok ⟨some 0, some 0.25, some (100 * Real.exp (0.25 * 0.05)), 110, some 0.1, 0.25⟩ := by
    simp [documented_model, OptModel.details, Fwd.optionForward, Fwd.truthy, Vol.eval, OptModel.time, Vol.dayCount, Fwd.dayCount, floatCal]
  have hp := documented_price
  have h1 := abs_le.1 documented_cdf_d
  have h2 := abs_le.1 documented_cdf_d'
  have h3 := abs_le.1 (documented_exp (x := 0.25 * 0.05) (by norm_num [abs_le]))
  have hF : |100 * Real.exp (0.25 * 0.05) - 101.25784515406345| ≤ 1e-12 := by
    norm_num [Finset.sum_range_succ, Nat.factorial, abs_of_pos] at h3
    rw [abs_le]
    constructor <;> norm_num <;> linarith
  have hf : documented_model.formula = logNormalFormula codeDist := rfl
  have hflat : OptDetails.flat (⟨some 0, some 0.25, some (100 * Real.exp (0.25 * 0.05)), 110, some 0.1, 0.25⟩ : OptDetails ℝ) = false := by
    norm_num [OptDetails.flat]
  have hF' := abs_le.1 hF
  generalize 100 * Real.exp (0.25 * 0.05) = F at *
  generalize normalCdf (20 * Real.log (10 / 11) + 0.275) = N at *
  generalize normalCdf (20 * Real.log (10 / 11) + 0.225) = M at *
  have hc : |F * N - 110 * M - 0.10726740675017865| ≤ 1.5e-9 := by
    have e : F * N - 110 * M - 0.10726740675017865 = (F - 101.25784515406345) * N + 101.25784515406345 * (N - 0.05142367174314) -
        110 * (M - 0.046361661671546) + (101.25784515406345 * 0.05142367174314 - 110 * 0.046361661671546 - 0.10726740675017865) := by ring
    have t : |(F - 101.25784515406345) * N| ≤ 1e-12 * 1 := by
      rw [abs_mul]
      have : |N| ≤ 1 := by rw [abs_le]; constructor <;> norm_num at h1 ⊢ <;> linarith
      gcongr
    have t' := abs_le.1 t
    rw [e, abs_le]
    norm_num at t' h1 h2 ⊢
    constructor <;> linarith
  have hc' := abs_le.1 hc
  refine ⟨F * N - 110 * M, 110 - F + (F * N - 110 * M), ?_, ?_, ?_, ?_⟩
  · simp only [PayOff.eval, OptPay.cashflow, OptModel.callValue, hd, Py.ok_bind, OptDetails.fwd, hflat, hf, Option.getD_some, hp]
    simp
  · exact hc.trans (by norm_num)
  · simp only [PayOff.eval, OptPay.cashflow, OptModel.putValue, hd, Py.ok_bind, OptDetails.fwd, hflat, hf, Option.getD_some, hp]
    simp
  · rw [abs_le]
    norm_num at hc' hF' ⊢
    constructor <;> linarith

end Dcf
