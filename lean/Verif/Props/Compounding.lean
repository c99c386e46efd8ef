import Verif.Model.Compounding
import Verif.Model.DayCount
import Verif.Lemmas.Py
import Mathlib.Analysis.Convex.SpecificFunctions.Basic
import Mathlib.Analysis.SpecialFunctions.Complex.LogBounds
import Mathlib.Analysis.SpecialFunctions.Log.Deriv

/-! # Compounding: properties C01-C04 and C72 -/

set_option linter.unusedSectionVars false

namespace Dcf

open Filter Topology

/-! ## C01: rate → factor → rate -/

/-- C01 (simple): the round trip returns the rate, or raises exactly on the singular lines. -/
theorem C01_simple (r t : ℝ) :
    (simpleCompounding r t >>= fun df => simpleRate df t) =
      if 1 + r * t = 0 ∨ t = 0 then .error .zeroDivision else .ok r := by
  unfold simpleCompounding simpleRate
  by_cases h : 1 + r * t = 0
  · simp [h]
  · rw [pyDiv_ok h, Py.ok_bind, pyDiv_ok (by simp [h]), Py.ok_bind]
    by_cases ht : t = 0
    · simp [ht]
    · rw [pyDiv_ok ht]; simp only [h, ht, or_self, if_false]; congr 1; field_simp; ring

/-- C01 (continuous). -/
theorem C01_continuous (r t : ℝ) :
    (continuousCompounding r t >>= fun df => continuousRate df t) =
      if t = 0 then .error .zeroDivision else .ok r := by
  unfold continuousCompounding continuousRate
  rw [Py.ok_bind, pyLog_ok (Real.exp_pos _), Py.ok_bind, Real.log_exp]
  by_cases ht : t = 0
  · simp [ht]
  · rw [pyDiv_ok ht, if_neg ht]; congr 1; field_simp

/-- C01 (periodic): for a positive base the round trip returns the rate unless `t = 0`. -/
theorem C01_periodic (r t m : ℝ) (hm : 0 < m) (hb : 0 < 1 + r / m) :
    (periodicCompounding r t m >>= fun df => periodicRate df t m) =
      if t = 0 then .error .zeroDivision else .ok r := by
  unfold periodicCompounding periodicRate
  simp only [pyDiv_ok hm.ne', Py.ok_bind, pyPow_ok hb]
  by_cases ht : t = 0
  · simp [ht]
  · have h1 : t * m ≠ 0 := mul_ne_zero ht hm.ne'
    rw [pyDiv_ok h1, Py.ok_bind, pyPow_ok (Real.rpow_pos_of_pos hb _), Py.ok_bind, if_neg ht,
      ← Real.rpow_mul hb.le]
    have : -m * t * (-1 / (t * m)) = 1 := by field_simp
    rw [this, Real.rpow_one]; congr 1; field_simp; ring

/-- C01 (periodic), singular base: a zero base raises `ValueError` for positive maturity. -/
theorem C01_periodic_zero_base (t m : ℝ) (hm : 0 < m) (ht : 0 < t) :
    periodicCompounding (-m) t m = .error .value := by
  unfold periodicCompounding
  rw [pyDiv_ok hm.ne', Py.ok_bind, neg_div, div_self hm.ne', add_neg_cancel]
  exact pyPow_zero_neg (by nlinarith)

/-- C01 (periodic), zero frequency: `ZeroDivisionError`. -/
theorem C01_periodic_zero_frequency (r t : ℝ) :
    periodicCompounding r t 0 = .error .zeroDivision := by
  simp [periodicCompounding]

/-- C01 (periodic), negative base: the round trip may succeed with a different rate, so the
hypothesis of `C01_periodic` cannot be dropped (rate -3, two years, annual compounding gives 1). -/
theorem C01_periodic_negative_base :
    (periodicCompounding (-3) 2 1 >>= fun df => periodicRate df 2 1) = .ok 1 := by
  have h : pyPow (-2) (-2 : ℝ) = .ok (1 / 4) := by
    have := pyPow_neg_int (x := -2) (by norm_num) (-2)
    norm_num at this ⊢; exact this
  have h2 : pyPow (1 / 4) (-1 / 2 : ℝ) = .ok 2 := by
    rw [pyPow_ok (by norm_num)]
    congr 1
    rw [show (1 / 4 : ℝ) = 2 ^ (-2 : ℝ) by rw [Real.rpow_neg (by norm_num)]; norm_num,
      ← Real.rpow_mul (by norm_num)]
    norm_num
  unfold periodicCompounding periodicRate
  rw [pyDiv_ok one_ne_zero, Py.ok_bind, show (1 + -3 / 1 : ℝ) = -2 by norm_num,
    show (-1 * 2 : ℝ) = -2 by norm_num, h, Py.ok_bind, pyDiv_ok (by norm_num), Py.ok_bind,
    show (-1 / (2 * 1) : ℝ) = -1 / 2 by norm_num, h2]
  norm_num

/-- The hypotheses of `C01_periodic` hold for an ordinary rate. -/
example : (0 : ℝ) < 12 ∧ (0 : ℝ) < 1 + (-3 / 100) / 12 := by norm_num

/-- Ordinary values stay clear of the singular lines of `C01_simple`. -/
example : ¬ ((1 : ℝ) + 1 / 100 * 5 = 0 ∨ (5 : ℝ) = 0) := by norm_num

/-! ## C02: factor → rate → factor -/

/-- C02 (simple). -/
theorem C02_simple (df t : ℝ) :
    (simpleRate df t >>= fun r => simpleCompounding r t) =
      if df = 0 ∨ t = 0 then .error .zeroDivision else .ok df := by
  unfold simpleCompounding simpleRate
  by_cases h : df = 0
  · simp [h]
  · rw [pyDiv_ok h, Py.ok_bind]
    by_cases ht : t = 0
    · simp [ht]
    · rw [pyDiv_ok ht, Py.ok_bind]
      have h1 : (1 + (1 / df - 1) / t * t) = 1 / df := by field_simp; ring
      rw [h1, pyDiv_ok (by simp [h])]; simp [h, ht]

/-- C02 (continuous). -/
theorem C02_continuous (df t : ℝ) :
    (continuousRate df t >>= fun r => continuousCompounding r t) =
      if df ≤ 0 then .error .value else if t = 0 then .error .zeroDivision else .ok df := by
  unfold continuousCompounding continuousRate
  by_cases h : df ≤ 0
  · simp [pyLog_error h, h]
  · push Not at h
    rw [pyLog_ok h, Py.ok_bind, if_neg h.not_ge]
    by_cases ht : t = 0
    · simp [ht]
    · rw [pyDiv_ok ht, Py.ok_bind, if_neg ht]
      have : -1 * (-Real.log df / t) * t = Real.log df := by field_simp
      rw [this, Real.exp_log h]

/-- C02 (periodic). -/
theorem C02_periodic (df t m : ℝ) (hm : 0 < m) (hdf : 0 < df) :
    (periodicRate df t m >>= fun r => periodicCompounding r t m) =
      if t = 0 then .error .zeroDivision else .ok df := by
  unfold periodicCompounding periodicRate
  by_cases ht : t = 0
  · simp [ht]
  · have h1 : t * m ≠ 0 := mul_ne_zero ht hm.ne'
    rw [pyDiv_ok h1, Py.ok_bind, pyPow_ok hdf, Py.ok_bind, Py.ok_bind, pyDiv_ok hm.ne', Py.ok_bind,
      mul_div_assoc, div_self hm.ne', mul_one, add_sub_cancel, pyPow_ok (Real.rpow_pos_of_pos hdf _),
      ← Real.rpow_mul hdf.le, if_neg ht]
    have : -1 / (t * m) * (-m * t) = 1 := by field_simp
    rw [this, Real.rpow_one]

example : (0 : ℝ) < 365 ∧ (0 : ℝ) < 1 / 2 := by norm_num

/-! ## C03: consecutive periods -/

/-- C03 (continuous): factors multiply, are positive, are 1 for an empty period. -/
theorem C03_continuous (r s t : ℝ) :
    ∃ a b, continuousCompounding r s = .ok a ∧ continuousCompounding r t = .ok b ∧ 0 < a ∧
      continuousCompounding r (s + t) = .ok (a * b) ∧ continuousCompounding r 0 = .ok 1 := by
  refine ⟨_, _, rfl, rfl, Real.exp_pos _, ?_, by simp [continuousCompounding]⟩
  rw [← Real.exp_add]; unfold continuousCompounding; congr 2; ring

/-- C03 (periodic): the same for every positive base. -/
theorem C03_periodic (r s t m : ℝ) (hm : 0 < m) (hb : 0 < 1 + r / m) :
    ∃ a b, periodicCompounding r s m = .ok a ∧ periodicCompounding r t m = .ok b ∧ 0 < a ∧
      periodicCompounding r (s + t) m = .ok (a * b) ∧ periodicCompounding r 0 m = .ok 1 := by
  have h : ∀ u, periodicCompounding r u m = .ok ((1 + r / m) ^ (-m * u)) := fun u => by
    simp only [periodicCompounding, pyDiv_ok hm.ne', Py.ok_bind, pyPow_ok hb]
  refine ⟨_, _, h s, h t, Real.rpow_pos_of_pos hb _, ?_, by rw [h]; simp⟩
  rw [h, ← Real.rpow_add hb]; congr 2; ring

/-- C03 (monotone): for a non-negative rate factors do not increase with maturity, in each of the
three conventions (simple: for non-negative maturities). -/
theorem C03_antitone (r s t m : ℝ) (hm : 0 < m) (hr : 0 ≤ r) (hs : 0 ≤ s) (hst : s ≤ t)
    (a b : ℝ) :
    (continuousCompounding r s = .ok a → continuousCompounding r t = .ok b → b ≤ a) ∧
    (periodicCompounding r s m = .ok a → periodicCompounding r t m = .ok b → b ≤ a) ∧
    (simpleCompounding r s = .ok a → simpleCompounding r t = .ok b → b ≤ a) := by
  have hb : 0 < 1 + r / m := by positivity
  have h : ∀ u, periodicCompounding r u m = .ok ((1 + r / m) ^ (-m * u)) := fun u => by
    simp only [periodicCompounding, pyDiv_ok hm.ne', Py.ok_bind, pyPow_ok hb]
  have hrs : r * s ≤ r * t := mul_le_mul_of_nonneg_left hst hr
  have hrs0 : 0 ≤ r * s := mul_nonneg hr hs
  refine ⟨fun h1 h2 => ?_, fun h1 h2 => ?_, fun h1 h2 => ?_⟩
  · unfold continuousCompounding at h1 h2
    cases h1; cases h2
    exact Real.exp_le_exp.2 (by nlinarith)
  · rw [h] at h1 h2; cases h1; cases h2
    exact Real.rpow_le_rpow_of_exponent_le (by have := div_nonneg hr hm.le; linarith) (by nlinarith)
  · unfold simpleCompounding at h1 h2
    rw [pyDiv_ok (by positivity)] at h1
    rw [pyDiv_ok (by linarith)] at h2
    cases h1; cases h2
    exact one_div_le_one_div_of_le (by linarith) (by linarith)

/-- C03 (simple): simple compounding does not multiply; the factor over the joint period is at
least the product (strictly greater as soon as `r s` and `r t` are positive). -/
theorem C03_simple (r s t a b c : ℝ) (hs : 0 ≤ r * s) (ht : 0 ≤ r * t)
    (ha : simpleCompounding r s = .ok a) (hb : simpleCompounding r t = .ok b)
    (hc : simpleCompounding r (s + t) = .ok c) :
    a * b ≤ c ∧ (0 < r * s → 0 < r * t → a * b < c) := by
  unfold simpleCompounding at *
  rw [pyDiv_ok (by linarith)] at ha
  rw [pyDiv_ok (by linarith)] at hb
  rw [pyDiv_ok (by nlinarith)] at hc
  cases ha; cases hb; cases hc
  have e : (1 + r * s) * (1 + r * t) = 1 + r * (s + t) + (r * s) * (r * t) := by ring
  rw [one_div_mul_one_div]
  refine ⟨one_div_le_one_div_of_le (by nlinarith) (by nlinarith), fun h1 h2 => ?_⟩
  exact one_div_lt_one_div_of_lt (by nlinarith) (by nlinarith [mul_pos h1 h2])

example : (0 : ℝ) < 4 ∧ (0 : ℝ) ≤ 1 / 50 ∧ (0 : ℝ) ≤ 1 ∧ (1 : ℝ) ≤ 3 := by norm_num

/-! ## C04: the periodic family -/

/-- C04 (names): the five named conventions are the periodic one at 1, 2, 4, 12 and 365. -/
theorem C04_names (r t : ℝ) :
    annuallyCompounding r t = periodicCompounding r t 1 ∧
    semiCompounding r t = periodicCompounding r t 2 ∧
    quarterlyCompounding r t = periodicCompounding r t 4 ∧
    monthlyCompounding r t = periodicCompounding r t 12 ∧
    dailyCompounding r t = periodicCompounding r t 365 := ⟨rfl, rfl, rfl, rfl, rfl⟩

private theorem periodic_eq (r t m : ℝ) (hm : 0 < m) (hr : 0 ≤ r) :
    periodicCompounding r t m = .ok ((1 + r / m) ^ (-m * t)) := by
  have hb : 0 < 1 + r / m := by positivity
  simp only [periodicCompounding, pyDiv_ok hm.ne', Py.ok_bind, pyPow_ok hb]

/-- C04 (order): more compounding periods give smaller factors, all above the continuous one. -/
theorem C04_order (r t m n : ℝ) (hr : 0 ≤ r) (ht : 0 ≤ t) (hm : 0 < m) (hmn : m ≤ n) :
    ∃ a b c, periodicCompounding r t m = .ok a ∧ periodicCompounding r t n = .ok b ∧
      continuousCompounding r t = .ok c ∧ c ≤ b ∧ b ≤ a := by
  have hn : 0 < n := hm.trans_le hmn
  refine ⟨_, _, _, periodic_eq r t m hm hr, periodic_eq r t n hn hr, rfl, ?_, ?_⟩
  · have hb : 0 < 1 + r / n := by positivity
    rw [Real.rpow_def_of_pos hb]
    apply Real.exp_le_exp.2
    have h1 : Real.log (1 + r / n) ≤ r / n := by
      have := Real.log_le_sub_one_of_pos hb; linarith
    have h2 : n * Real.log (1 + r / n) ≤ r := by
      calc n * Real.log (1 + r / n) ≤ n * (r / n) := mul_le_mul_of_nonneg_left h1 hn.le
        _ = r := by field_simp
    nlinarith
  · have hbm : 0 < 1 + r / m := by positivity
    have hbn : 0 < 1 + r / n := by positivity
    have key : 1 + r / m ≤ (1 + r / n) ^ (n / m) := by
      have := one_add_mul_self_le_rpow_one_add (s := r / n) (p := n / m)
        (by have : 0 ≤ r / n := by positivity
            linarith) ((one_le_div hm).2 hmn)
      calc 1 + r / m = 1 + n / m * (r / n) := by field_simp
        _ ≤ _ := this
    have h3 : (1 + r / n) ^ (-n * t) = ((1 + r / n) ^ (n / m)) ^ (-m * t) := by
      rw [← Real.rpow_mul hbn.le]; congr 1; field_simp
    rw [h3]
    exact Real.rpow_le_rpow_of_nonpos hbm key (by nlinarith)

/-- C04 (limit): the periodic factor tends to the continuous one. -/
theorem C04_limit (r t : ℝ) (hr : 0 ≤ r) :
    ∃ f : ℝ → ℝ, (∀ m, 0 < m → periodicCompounding r t m = .ok (f m)) ∧
      ∃ c, continuousCompounding r t = .ok c ∧ Tendsto f atTop (𝓝 c) := by
  refine ⟨fun m => (1 + r / m) ^ (-m * t), fun m hm => periodic_eq r t m hm hr, _, rfl, ?_⟩
  have h := Real.tendsto_one_add_div_rpow_exp r
  have h2 : Tendsto (fun m : ℝ => ((1 + r / m) ^ m) ^ (-t)) atTop (𝓝 (Real.exp r ^ (-t))) :=
    h.rpow_const (Or.inl (Real.exp_pos r).ne')
  have e : Real.exp (-1 * r * t) = Real.exp r ^ (-t) := by
    rw [← Real.exp_mul]; congr 1; ring
  rw [e]
  refine h2.congr' ?_
  filter_upwards [eventually_gt_atTop (0 : ℝ)] with m hm
  rw [← Real.rpow_mul (by positivity)]; congr 1; ring

example : (0 : ℝ) ≤ 1 / 20 ∧ (0 : ℝ) ≤ 10 ∧ (0 : ℝ) < 1 ∧ (1 : ℝ) ≤ 365 := by norm_num

/-! ## C72: the default day count -/

/-- Two dates of the same kind (both year fractions or both calendar dates). -/
def SameKind {K : Type} : PyDate K → PyDate K → Prop
  | .yf _, .yf _ => True
  | .cal _, .cal _ => True
  | _, _ => False

/-- `b` is after `a`. -/
def Later {K : Type} [LT K] : PyDate K → PyDate K → Prop
  | .yf s, .yf e => s < e
  | .cal s, .cal e => s < e
  | _, _ => False

variable {K : Type} [Field K] [LinearOrder K] [IsStrictOrderedRing K]

/-- C72: defined on dates of the same kind, additive, zero on equal dates and positive exactly
when the second date is later. -/
theorem C72_day_count (a b c : PyDate K) (hab : SameKind a b) (hbc : SameKind b c) :
    ∃ x y, defaultDayCount a b = .ok x ∧ defaultDayCount b c = .ok y ∧
      defaultDayCount a c = .ok (x + y) ∧ defaultDayCount a a = .ok 0 ∧ (0 < x ↔ Later a b) := by
  have hpos : (0 : K) < 36525 / 100 := by norm_num
  cases a <;> cases b <;> cases c <;> simp only [SameKind] at hab hbc
  · exact ⟨_, _, rfl, rfl, by simp [defaultDayCount], by simp [defaultDayCount],
      by simp [Later]⟩
  · rename_i s e u
    refine ⟨_, _, rfl, rfl, ?_, by simp [defaultDayCount], ?_⟩
    · simp only [defaultDayCount]; congr 1; rw [← add_div]; push_cast; ring_nf
    · rw [lt_div_iff₀ hpos, zero_mul, Int.cast_pos]; simp [Later]

/-- C72 (error branch): mixing a number with a calendar date is a `TypeError`. -/
theorem C72_mixed (a b : PyDate K) (h : ¬ SameKind a b) : defaultDayCount a b = .error .type := by
  cases a <;> cases b <;> simp_all [SameKind, defaultDayCount]

example : SameKind (.cal 0 : PyDate ℚ) (.cal 31) ∧ Later (.cal 0 : PyDate ℚ) (.cal 31) := by
  simp [SameKind, Later]

/-! ### The hypotheses can be met: each theorem applied -/

example := C01_periodic (5 / 100) 2 4 (by norm_num) (by norm_num)
example := C01_periodic_zero_base 2 4 (by norm_num) (by norm_num)
example := C02_periodic (9 / 10) 2 4 (by norm_num) (by norm_num)
example := C03_periodic (5 / 100) 1 2 4 (by norm_num) (by norm_num)
example := (C03_antitone (5 / 100) 1 2 4 (by norm_num) (by norm_num) (by norm_num) (by norm_num) _ _).1 rfl rfl
example := C03_simple 1 1 1 (1 / 2) (1 / 2) (1 / 3) (by norm_num) (by norm_num) (by norm_num [simpleCompounding, pyDiv]) (by norm_num [simpleCompounding, pyDiv])
  (by norm_num [simpleCompounding, pyDiv])
example := C04_order (5 / 100) 2 2 4 (by norm_num) (by norm_num) (by norm_num) (by norm_num)
example := C04_limit (5 / 100) 2 (by norm_num)
example := C72_day_count (K := ℝ) (.cal 0) (.cal 100) (.cal 365) trivial trivial
example := C72_mixed (K := ℝ) (.cal 0) (.yf 100) (by simp [SameKind])

end Dcf
