import Mathlib.Analysis.Calculus.Deriv.MeanValue
import Verif.Props.Documented

/-! # Model sensitivities: C53, C71, C99, C100 -/

set_option linter.unusedSectionVars false
set_option linter.unusedSimpArgs false
set_option linter.unusedVariables false

namespace Dcf

open Spec

section
variable {D P : Type} {cal : Cal D P} {num : AsNumber D} {m : OptModel D} {date : D} {strike : Option ℝ}
  {d : OptDetails D} {F : ℝ}

/-- C53: put and call have the same gamma, vega and theta. -/
theorem C53_second_order (m : OptModel D) (num : AsNumber D) (date : D) (strike : Option ℝ) :
    m.putGamma cal num date strike = m.callGamma cal num date strike ∧
    m.putVega cal num date strike = m.callVega cal num date strike ∧
    m.putTheta cal num date strike = m.callTheta cal num date strike := ⟨rfl, rfl, rfl⟩

/-! ## What the sensitivities are -/

/-- `price` as a function of the forward is `f` between the two forwards. -/
def PricesForward (m : OptModel D) (d : OptDetails D) (f : ℝ → ℝ) (lo hi : ℝ) : Prop :=
  ∀ x, lo ≤ x → x ≤ hi → m.formula.price (.ok d.time) d.strike x (d.volatility.getD 0) = .ok (f x)

/-- `price` as a function of the volatility. -/
def PricesVol (m : OptModel D) (d : OptDetails D) (F : ℝ) (f : ℝ → ℝ) (lo hi : ℝ) : Prop :=
  ∀ x, lo ≤ x → x ≤ hi → m.formula.price (.ok d.time) d.strike F x = .ok (f x)

/-- `price` as a function of the time to expiry. -/
def PricesTime (m : OptModel D) (d : OptDetails D) (F : ℝ) (f : ℝ → ℝ) (lo hi : ℝ) : Prop :=
  ∀ x, lo ≤ x → x ≤ hi → m.formula.price (.ok x) d.strike F (d.volatility.getD 0) = .ok (f x)

theorem mean_value {f f' : ℝ → ℝ} {a b : ℝ} (hab : a < b) (h : ∀ x, a ≤ x → x ≤ b → HasDerivAt f (f' x) x) :
    ∃ c, a < c ∧ c < b ∧ f b - f a = f' c * (b - a) := by
  obtain ⟨c, hc, he⟩ := exists_hasDerivAt_eq_slope f f' hab
    (fun x hx => (h x hx.1 hx.2).continuousAt.continuousWithinAt) fun x hx => h x hx.1.le hx.2.le
  refine ⟨c, hc.1, hc.2, ?_⟩
  rw [he]
  have : b - a ≠ 0 := by linarith
  field_simp

/-- C99: a bumped delta is 0.0001 times the derivative of the price at a forward within one basis point. -/
theorem C99_delta (hd : m.details cal date strike = .ok d) (hF : d.forward = some F) (hfl : d.flat = false)
    (hb : m.bump = true) {f f' : ℝ → ℝ} (hp : PricesForward m d f F (F + 0.0001))
    (hf : ∀ x, F ≤ x → x ≤ F + 0.0001 → HasDerivAt f (f' x) x) :
    ∃ x, F < x ∧ x < F + 0.0001 ∧ m.callDelta cal date strike = .ok (f' x * 0.0001) := by
  obtain ⟨c, h1, h2, h3⟩ := mean_value (a := F) (b := F + 0.0001) (by norm_num) hf
  refine ⟨c, h1, h2, ?_⟩
  simp only [OptModel.callDelta, hd, Py.ok_bind, OptDetails.fwd, hF, hfl, hb, if_true, Bool.false_eq_true, if_false,
    hp F le_rfl (by norm_num), hp (F + 0.0001) (by norm_num) le_rfl, h3, pyDiv_ok (show (0.0001 : ℝ) ≠ 0 by norm_num)]
  congr 1
  have : F + 0.0001 - F = (0.0001 : ℝ) := by ring
  rw [this]; field_simp

/-- C99: a bumped gamma is 0.0001² times the second derivative of the price at a forward within one basis point. -/
theorem C99_gamma (hd : m.details cal date strike = .ok d) (hF : d.forward = some F) (hfl : d.flat = false)
    (hb : m.bump = true) {f f' f'' : ℝ → ℝ} (hp : PricesForward m d f (F - 0.0001) (F + 0.0001))
    (hf : ∀ x, F - 0.0001 ≤ x → x ≤ F + 0.0001 → HasDerivAt f (f' x) x)
    (hf' : ∀ x, F - 0.0001 ≤ x → x ≤ F + 0.0001 → HasDerivAt f' (f'' x) x) :
    ∃ x, F - 0.0001 < x ∧ x < F + 0.0001 ∧ m.callGamma cal num date strike = .ok (f'' x * 0.0001 ^ 2) := by
  obtain ⟨c, h1, h2, h3⟩ := mean_value (f := fun x => f (x + 0.0001) - f x) (f' := fun x => f' (x + 0.0001) - f' x)
    (a := F - 0.0001) (b := F) (by norm_num) fun x hx hx' =>
      ((hf (x + 0.0001) (by linarith) (by linarith)).comp_add_const x 0.0001).sub (hf x hx (by linarith))
  obtain ⟨e, h4, h5, h6⟩ := mean_value (f := f') (f' := f'') (a := c) (b := c + 0.0001) (by norm_num) fun x hx hx' =>
    hf' x (by linarith) (by linarith)
  refine ⟨e, by linarith, by linarith, ?_⟩
  simp only [OptModel.callGamma, hd, Py.ok_bind, OptDetails.fwd, hF, hfl, hb, if_true, Bool.false_eq_true, if_false,
    hp F (by linarith) (by linarith), hp (F + 0.0001) (by linarith) le_rfl, hp (F - 0.0001) le_rfl (by linarith),
    pyDiv_ok (show (0.0001 : ℝ) ≠ 0 by norm_num)]
  congr 1
  have h7 : f (F + 0.0001) - 2 * f F + f (F - 0.0001) = (f' (c + 0.0001) - f' c) * 0.0001 := by
    have : F - 0.0001 + 0.0001 = F := by ring
    rw [this] at h3
    linarith
  rw [h7, h6]
  ring

/-- C99: a bumped vega is 0.01 times the derivative of the price at a volatility within one percent point, provided
that the date and the time to expiry are the same number (see C71). -/
theorem C99_vega_partial (hd : m.details cal date strike = .ok d) (hF : d.forward = some F) (hfl : d.flat = false)
    (hb : m.bump = true) (hnum : num date = .ok d.time) {σ : ℝ} (hσ : d.volatility = some σ) {f f' : ℝ → ℝ}
    (hp : PricesVol m d F f σ (σ + 0.01)) (hf : ∀ x, σ ≤ x → x ≤ σ + 0.01 → HasDerivAt f (f' x) x) :
    ∃ x, σ < x ∧ x < σ + 0.01 ∧ m.callVega cal num date strike = .ok (f' x * 0.01) := by
  obtain ⟨c, h1, h2, h3⟩ := mean_value (a := σ) (b := σ + 0.01) (by norm_num) hf
  refine ⟨c, h1, h2, ?_⟩
  simp only [OptModel.callVega, hd, Py.ok_bind, OptDetails.fwd, hF, hfl, hb, if_true, Bool.false_eq_true, if_false,
    hnum, hσ, Option.getD_some, hp σ le_rfl (by norm_num), hp (σ + 0.01) (by norm_num) le_rfl, h3,
    pyDiv_ok (show (0.01 : ℝ) ≠ 0 by norm_num)]
  congr 1
  ring

/-- C99 fails for theta: the difference of the prices is not divided by the bump, so theta is the derivative of the price
in the time to expiry times 1/365.25 squared; the scale of theta is 1/365.25.  (This is also the theta of all models of
the package, as none has an own theta.) -/
theorem C99_theta_violated (hd : m.details cal date strike = .ok d) (hF : d.forward = some F) (hfl : d.flat = false)
    (hb : m.bump = true ∨ (∀ t k F v, m.formula.theta t k F v = .ok none)) {f f' : ℝ → ℝ} (hp : PricesTime m d F f d.time (d.time + 1 / 365.25))
    (hf : ∀ x, d.time ≤ x → x ≤ d.time + 1 / 365.25 → HasDerivAt f (f' x) x) :
    ∃ x, d.time < x ∧ x < d.time + 1 / 365.25 ∧
      m.callTheta cal num date strike = .ok (f' x * (1 / 365.25) * (1 / 365.25)) := by
  obtain ⟨c, h1, h2, h3⟩ := mean_value (a := d.time) (b := d.time + 1 / 365.25) (by norm_num) hf
  refine ⟨c, h1, h2, ?_⟩
  have hbump : m.bump = false ∨ m.bump = true := by cases m.bump <;> simp
  have key : m.callTheta cal num date strike = (do
      let up ← m.formula.price (.ok (d.time + 1 / 365.25)) d.strike F (d.volatility.getD 0)
      let base ← m.formula.price (.ok d.time) d.strike F (d.volatility.getD 0)
      .ok ((up - base) * (1 / 365.25))) := by
    rcases hb with hb | hb
    · simp only [OptModel.callTheta, hd, Py.ok_bind, OptDetails.fwd, hF, hfl, hb, if_true, Bool.false_eq_true, if_false]
    · simp only [OptModel.callTheta, hd, Py.ok_bind, OptDetails.fwd, hF, hfl, hb, Bool.false_eq_true, if_false,
        ite_self]
  rw [key, hp _ le_rfl (by norm_num), hp _ (by norm_num) le_rfl]
  simp only [Py.ok_bind, h3]
  congr 1
  ring

/-- C99: a delta or vega given by the formula of the model is scaled by 0.0001 and 0.01. -/
theorem C99_formula (hd : m.details cal date strike = .ok d) (hF : d.forward = some F) (hfl : d.flat = false)
    (hb : m.bump = false) {x y : ℝ}
    (hx : m.formula.delta (.ok d.time) d.strike F (d.volatility.getD 0) = .ok (some x))
    (hy : m.formula.vega (.ok d.time) d.strike F (d.volatility.getD 0) = .ok (some y)) :
    m.callDelta cal date strike = .ok (x * 0.0001) ∧ m.callVega cal num date strike = .ok (y * 0.01) := by
  constructor
  · simp only [OptModel.callDelta, hd, Py.ok_bind, OptDetails.fwd, hF, hfl, hb, Bool.false_eq_true, if_false, hx]
  · simp only [OptModel.callVega, hd, Py.ok_bind, OptDetails.fwd, hF, hfl, hb, Bool.false_eq_true, if_false, hy]

/-- C99: without volatility or time the sensitivities are those of the payoff. -/
theorem C99_flat (hd : m.details cal date strike = .ok d) (hF : d.forward = some F) (hfl : d.flat = true) :
    m.callDelta cal date strike = .ok (if F < d.strike then 0 else 0.0001) ∧
    m.callGamma cal num date strike = .ok 0 ∧ m.callVega cal num date strike = .ok 0 ∧
    m.callTheta cal num date strike = .ok 0 := by
  simp [OptModel.callDelta, OptModel.callGamma, OptModel.callVega, OptModel.callTheta, hd, OptDetails.fwd, hF, hfl]

/-! ## C71: date in place of time -/

/-- The two options have the same inputs to the pricing formula. -/
def SameOption (d d' : OptDetails D) : Prop :=
  d.forward = d'.forward ∧ d.strike = d'.strike ∧ d.volatility = d'.volatility ∧ d.time = d'.time

theorem SameOption.flat {d d' : OptDetails D} (h : SameOption d d') : d.flat = d'.flat := by
  simp [OptDetails.flat, h.2.2.1, h.2.2.2]

/-- C71, partial: equal time to expiry, forward, strike and volatility give equal delta; equal gamma if greeks are bumped
or the formula has no gamma; equal vega if the formula has a vega; equal theta if greeks are bumped or the formula has
no theta.  Full claim: always.  Missing: it is false else, see below. -/
theorem C71_partial {m' : OptModel D} {date' : D} {strike' : Option ℝ} {d' : OptDetails D}
    (hd : m.details cal date strike = .ok d) (hd' : m'.details cal date' strike' = .ok d') (hs : SameOption d d')
    (hf : m.formula = m'.formula) (hb : m.bump = m'.bump) :
    m.callDelta cal date strike = m'.callDelta cal date' strike' ∧
    (m.bump = true ∨ (∀ t k F v, m.formula.gamma t k F v = .ok none) →
      m.callGamma cal num date strike = m'.callGamma cal num date' strike') ∧
    (m.bump = false → (∀ t k F v, m.formula.vega t k F v ≠ .ok none) →
      m.callVega cal num date strike = m'.callVega cal num date' strike') ∧
    (m.bump = true ∨ (∀ t k F v, m.formula.theta t k F v = .ok none) →
      m.callTheta cal num date strike = m'.callTheta cal num date' strike') := by
  have hfl := hs.flat
  obtain ⟨h1, h2, h3, h4⟩ := hs
  refine ⟨?_, ?_, ?_, ?_⟩
  · simp only [OptModel.callDelta, hd, hd', Py.ok_bind, OptDetails.fwd, h1, h2, h3, h4, hfl, hf, hb]
  · rintro (h | h)
    · have h' := hb ▸ h
      simp only [OptModel.callGamma, hd, hd', Py.ok_bind, OptDetails.fwd, h1, h2, h3, h4, hfl, hf, h, h', if_true]
    · have h' := hf ▸ h
      simp only [OptModel.callGamma, hd, hd', Py.ok_bind, OptDetails.fwd, h1, h2, h3, h4, hfl, hf, h', ite_self]
  · intro h hv
    have h' := hb ▸ h
    rw [hf] at hv
    simp only [OptModel.callVega, hd, hd', Py.ok_bind, OptDetails.fwd, h1, h2, h3, h4, hfl, hf, h, h',
      Bool.false_eq_true, if_false]
    split_ifs
    · rfl
    · cases d'.forward with
      | none => rfl
      | some F =>
        simp only [Py.ok_bind]
        have := hv (.ok d'.time) d'.strike F (d'.volatility.getD 0)
        rcases hg : m'.formula.vega (.ok d'.time) d'.strike F (d'.volatility.getD 0) with e | (_ | x)
        · rfl
        · exact absurd hg this
        · rfl
  · rintro (h | h)
    · have h' := hb ▸ h
      simp only [OptModel.callTheta, hd, hd', Py.ok_bind, OptDetails.fwd, h1, h2, h3, h4, hfl, hf, h, h', if_true]
    · have h' := hf ▸ h
      simp only [OptModel.callTheta, hd, hd', Py.ok_bind, OptDetails.fwd, h1, h2, h3, h4, hfl, hf, h', ite_self]

/-- C71 fails: with calendar dates the gamma of the normal models and every bumped vega raise, although the price is
known. -/
theorem C71_date_violated (hd : m.details cal date strike = .ok d) (hF : d.forward = some F) (hfl : d.flat = false)
    (hnum : num date = .error .type) :
    (m.bump = false → m.formula = normalFormula codeDist ∨ m.formula = binaryNormalFormula codeDist →
      m.callGamma cal num date strike = .error .type) ∧
    (m.bump = true → m.formula = normalFormula codeDist → 0 < d.time → 0 < d.volatility.getD 0 →
      m.callVega cal num date strike = .error .type ∧ ∃ p, m.callValue cal date strike = .ok p) := by
  constructor
  · rintro hb (h | h)
    · simp only [OptModel.callGamma, hd, Py.ok_bind, OptDetails.fwd, hF, hfl, hb, Bool.false_eq_true, if_false, h,
        normalFormula, normalD, volOfTime, hnum, Py.error_bind]
    · simp only [OptModel.callGamma, hd, Py.ok_bind, OptDetails.fwd, hF, hfl, hb, Bool.false_eq_true, if_false, h,
        binaryNormalFormula, normalD, volOfTime, hnum, Py.error_bind]
  · intro hb h ht hv
    constructor
    · simp only [OptModel.callVega, hd, Py.ok_bind, OptDetails.fwd, hF, hfl, hb, Bool.false_eq_true, if_false, h, if_true]
      rw [normal_price codeDist ht (by linarith), hnum]
      simp only [Py.ok_bind, normalFormula, normalD, volOfTime, Py.error_bind]
    · simp only [OptModel.callValue, hd, Py.ok_bind, OptDetails.fwd, hF, hfl, Bool.false_eq_true, if_false, h]
      exact ⟨_, normal_price codeDist ht hv.ne' d.strike F⟩

end

/-- C71: the model of the next theorem: a flat forward of 100 and volatility of 20 in the normal model with float dates. -/
noncomputable def flatNormal (valuation : ℝ) (bump : Bool) : OptModel ℝ :=
  ⟨some valuation, .num 100, .num 20, none, bump, normalFormula codeDist⟩

theorem flatNormal_details (v x : ℝ) (b : Bool) : (flatNormal v b).details floatCal x (some 100) =
    .ok ⟨some v, some x, some 100, 100, some 20, x - v⟩ := by
  simp [flatNormal, OptModel.details, Fwd.optionForward, Fwd.truthy, Vol.eval, OptModel.time, Vol.dayCount, Fwd.dayCount,
    floatCal]

/-- C71 fails: moving valuation date and expiry by the same number of years keeps time, forward, strike and volatility,
but changes gamma and the bumped vega. -/
theorem C71_violated :
    (∃ d d' : OptDetails ℝ, (flatNormal 0 false).details floatCal 1 (some 100) = .ok d ∧
      (flatNormal 3 false).details floatCal 4 (some 100) = .ok d' ∧ SameOption d d') ∧
    (flatNormal 0 false).callGamma floatCal .ok 1 (some 100) ≠ (flatNormal 3 false).callGamma floatCal .ok 4 (some 100) ∧
    (flatNormal 0 true).callVega floatCal .ok 1 (some 100) ≠ (flatNormal 3 true).callVega floatCal .ok 4 (some 100) := by
  have h4 : Real.sqrt 4 = 2 := by rw [show (4 : ℝ) = 2 ^ 2 by norm_num, Real.sqrt_sq (by norm_num)]
  have hp := normalPdf_pos 0
  refine ⟨⟨_, _, flatNormal_details _ _ _, flatNormal_details _ _ _, ?_⟩, ?_, ?_⟩
  · norm_num [SameOption]
  · simp only [OptModel.callGamma, flatNormal_details, Py.ok_bind, OptDetails.fwd, OptDetails.flat]
    norm_num [flatNormal]
    have e1 := (C98_normal codeDist (t := 1) (σ := 20) one_pos (by norm_num) 100 100).2.2.1
    have e2 := (C98_normal codeDist (t := 4) (σ := 20) (by norm_num) (by norm_num) 100 100).2.2.1
    rw [e1, e2]
    simp only [Py.ok_bind, docD, sub_self, zero_div, Real.sqrt_one, h4, codeDist]
    intro h
    have := Except.ok.inj h
    linarith
  · simp only [OptModel.callVega, flatNormal_details, Py.ok_bind, OptDetails.fwd, OptDetails.flat]
    norm_num [flatNormal]
    rw [(C98_normal codeDist (t := 1) (σ := 2001 / 100) one_pos (by norm_num) 100 100).1,
      (C98_normal codeDist (t := 1) (σ := 20) one_pos (by norm_num) 100 100).1,
      (C98_normal codeDist (t := 4) (σ := 20) (by norm_num) (by norm_num) 100 100).1]
    simp only [Py.ok_bind, docD, sub_self, zero_div, Real.sqrt_one, h4, codeDist, zero_mul, zero_add,
      pyDiv_ok (show (1 / 100 : ℝ) ≠ 0 by norm_num)]
    intro h
    have := Except.ok.inj h
    linarith

/-! ## C100: binary options as call spreads -/

section
variable {inner : OptFormula} {s : Option ℝ} {time : Py ℝ} {K F σ : ℝ}

/-- C100: the price is the difference quotient of the inner call price in the strike, hence minus a derivative at a
strike within half a basis point. -/
theorem C100_spread {f f' : ℝ → ℝ}
    (hp : ∀ x, K - 0.00005 ≤ x → x ≤ K + 0.00005 → inner.price time x F σ = .ok (f x))
    (hf : ∀ x, K - 0.00005 ≤ x → x ≤ K + 0.00005 → HasDerivAt f (f' x) x) :
    ∃ x, K - 0.00005 < x ∧ x < K + 0.00005 ∧ (binaryFormula inner s).price time K F σ = .ok (-f' x) := by
  obtain ⟨c, h1, h2, h3⟩ := mean_value (a := K - 0.00005) (b := K + 0.00005) (by linarith) hf
  refine ⟨c, h1, h2, ?_⟩
  have e1 : K - 0.0001 / 2 = K - 0.00005 := by norm_num
  have e2 : K + 0.0001 / 2 = K + 0.00005 := by norm_num
  simp only [binaryFormula, e1, e2, hp (K - 0.00005) le_rfl (by linarith),
    hp (K + 0.00005) (by linarith) le_rfl, Py.ok_bind, pyDiv_ok (show (0.0001 : ℝ) ≠ 0 by norm_num)]
  congr 1
  rw [div_eq_iff (by norm_num)]
  have : K + 0.00005 - (K - 0.00005) = (0.0001 : ℝ) := by norm_num
  rw [this] at h3
  linarith

/-- C100: a call price that falls in the strike, but no faster than the strike rises, gives a binary price between 0 and
1. -/
theorem C100_range {lo hi : ℝ} (h1 : inner.price time (K - 0.00005) F σ = .ok lo)
    (h2 : inner.price time (K + 0.00005) F σ = .ok hi) (h3 : hi ≤ lo) (h4 : lo ≤ hi + 0.0001) :
    ∃ p, (binaryFormula inner s).price time K F σ = .ok p ∧ 0 ≤ p ∧ p ≤ 1 := by
  have e1 : K - 0.0001 / 2 = K - 0.00005 := by norm_num
  have e2 : K + 0.0001 / 2 = K + 0.00005 := by norm_num
  refine ⟨(lo - hi) / 0.0001, ?_, by apply div_nonneg <;> norm_num; linarith, ?_⟩
  · simp only [binaryFormula, e1, e2, h1, h2, Py.ok_bind, pyDiv_ok (show (0.0001 : ℝ) ≠ 0 by norm_num)]
  · rw [div_le_one (by norm_num)]; linarith

/-- C100: over the intrinsic model the price is 0 below and 1 above the strike, up to half a basis point. -/
theorem C100_intrinsic (s : Option ℝ) (time : Py ℝ) (K F σ : ℝ) :
    (F ≤ K - 0.00005 → (binaryFormula intrinsicFormula s).price time K F σ = .ok 0) ∧
    (K + 0.00005 ≤ F → (binaryFormula intrinsicFormula s).price time K F σ = .ok 1) := by
  have e1 : K - 0.0001 / 2 = K - 0.00005 := by norm_num
  have e2 : K + 0.0001 / 2 = K + 0.00005 := by norm_num
  constructor
  · intro h
    simp only [binaryFormula, intrinsicFormula, Py.ok_bind, pyDiv_ok (show (0.0001 : ℝ) ≠ 0 by norm_num), e1, e2]
    rw [max_eq_right (by linarith), max_eq_right (by linarith)]; norm_num
  · intro h
    simp only [binaryFormula, intrinsicFormula, Py.ok_bind, pyDiv_ok (show (0.0001 : ℝ) ≠ 0 by norm_num), e1, e2]
    rw [max_eq_left (by linarith), max_eq_left (by linarith)]; norm_num

/-- C100 fails for the strike shift: the constructor argument has no effect. -/
theorem C100_shift_violated (inner : OptFormula) (s s' : Option ℝ) : binaryFormula inner s = binaryFormula inner s' := rfl

end

/-- C99 and C100: the hypotheses hold for the normal model: its price is a differentiable function of forward, volatility
and time. -/
example : ∃ d : OptDetails ℝ, (flatNormal 0 true).details floatCal 1 (some 100) = .ok d ∧ d.forward = some 100 ∧
    d.flat = false ∧ (flatNormal 0 true).bump = true ∧ (.ok 1 : Py ℝ) = .ok d.time ∧ d.volatility = some 20 := by
  refine ⟨_, flatNormal_details 0 1 true, rfl, ?_, rfl, ?_, rfl⟩
  · norm_num [OptDetails.flat]
  · norm_num

/-! ### The hypotheses can be met: each theorem applied -/

/-- The price of a call with strike 90 as a function of a forward above the strike and the total volatility. -/
noncomputable def exPrice (F s : ℝ) : ℝ :=
  (F - 90) * (1 - 0.398942280401433 * Real.exp (-0.5 * ((F - 90) / s) * ((F - 90) / s)) * cdfPoly (1 / (1 + 0.2316419 * ((F - 90) / s)))) +
    s * normalPdf ((F - 90) / s)

theorem exPrice_eq {t F σ : ℝ} (hF : 90 ≤ F) (ht : 0 < t) (hσ : 0 < σ) :
    (normalFormula codeDist).price (.ok t) 90 F σ = .ok (exPrice F (σ * Real.sqrt t)) := by
  have hs : 0 < σ * Real.sqrt t := mul_pos hσ (Real.sqrt_pos.2 ht)
  have h0 : 0 ≤ (F - 90) / (σ * Real.sqrt t) := div_nonneg (by linarith) hs.le
  simp only [normalFormula, normalD, volOfTime, pySqrt, ht.le, if_true, Py.ok_bind, pyDiv_ok hs.ne', codeDist, exPrice, normalCdf, h0, if_true]

theorem exPrice_smooth {f g : ℝ → ℝ} {S : Set ℝ} (hf : ContDiffOn ℝ 2 f S) (hg : ContDiffOn ℝ 2 g S) (h : ∀ x ∈ S, 90 ≤ f x ∧ 0 < g x) :
    ContDiffOn ℝ 2 (fun x => exPrice (f x) (g x)) S := by
  have hd : ContDiffOn ℝ 2 (fun x => (f x - 90) / g x) S := (hf.sub contDiffOn_const).div hg fun x hx => (h x hx).2.ne'
  have hq : ContDiffOn ℝ 2 (fun x => 1 / (1 + 0.2316419 * ((f x - 90) / g x))) S :=
    contDiffOn_const.div (contDiffOn_const.add (contDiffOn_const.mul hd)) fun x hx => by
      have : 0 ≤ (f x - 90) / g x := div_nonneg (by linarith [(h x hx).1]) (h x hx).2.le
      positivity
  have he : ContDiffOn ℝ 2 (fun x => Real.exp (-0.5 * ((f x - 90) / g x) * ((f x - 90) / g x))) S :=
    ((contDiffOn_const.mul hd).mul hd).exp
  have hc : ContDiff ℝ 2 cdfPoly := by unfold cdfPoly; fun_prop
  exact ((hf.sub contDiffOn_const).mul (contDiffOn_const.sub ((contDiffOn_const.mul he).mul (hc.comp_contDiffOn hq)))).add
    (hg.mul (contDiffOn_const.mul he))

/-- A normal model with forward 100, volatility 20 and greeks by bumps; a call with strike 90 in one year. -/
theorem exCall_details (b : Bool) : (flatNormal 0 b).details floatCal 1 (some 90) = .ok ⟨some 0, some 1, some 100, 90, some 20, 1⟩ := by
  simp [flatNormal, OptModel.details, Fwd.optionForward, Fwd.truthy, Vol.eval, OptModel.time, Vol.dayCount, Fwd.dayCount, floatCal]

theorem exForward_smooth : ContDiffOn ℝ 2 (fun x => exPrice x 20) (Set.Ioi 90) :=
  exPrice_smooth contDiffOn_id contDiffOn_const fun x hx => ⟨le_of_lt hx, by norm_num⟩

theorem exForward_prices : PricesForward (flatNormal 0 true) ⟨some 0, some (1 : ℝ), some 100, 90, some 20, 1⟩ (fun x => exPrice x 20) (100 - 0.0001) (100 + 0.0001) :=
  fun x hx _ => by
    have h := exPrice_eq (t := 1) (F := x) (σ := 20) (by norm_num at hx; linarith) one_pos (by norm_num)
    rw [Real.sqrt_one, mul_one] at h
    exact h

theorem exForward_deriv {x : ℝ} (hx : 90 < x) : HasDerivAt (fun x => exPrice x 20) (deriv (fun x => exPrice x 20) x) x :=
  ((exForward_smooth.differentiableOn (by norm_num)).differentiableAt (Ioi_mem_nhds hx)).hasDerivAt

example := C99_delta (exCall_details true) rfl (by norm_num [OptDetails.flat]) rfl (fun x h h' => exForward_prices x (by linarith) h')
  (fun x h _ => exForward_deriv (by linarith))

example (num : AsNumber ℝ) := C99_gamma (num := num) (exCall_details true) rfl (by norm_num [OptDetails.flat]) rfl exForward_prices
  (fun x h _ => exForward_deriv (by norm_num at h; linarith)) (fun x h _ =>
    ((((contDiffOn_succ_iff_deriv_of_isOpen (n := 1) isOpen_Ioi).1 exForward_smooth).2.2.differentiableOn (by norm_num)).differentiableAt
      (Ioi_mem_nhds (by norm_num at h; linarith))).hasDerivAt)

example := C99_vega_partial (num := fun x => .ok x) (exCall_details true) rfl (by norm_num [OptDetails.flat]) rfl rfl (σ := 20) rfl
  (f := fun s => exPrice 100 s) (fun x h _ => by
    have h := exPrice_eq (t := 1) (F := 100) (σ := x) (by norm_num) one_pos (by linarith)
    rw [Real.sqrt_one, mul_one] at h
    exact h)
  (fun x h _ => (((exPrice_smooth (f := fun _ => 100) (g := fun s => s) (S := Set.Ioi 0) contDiffOn_const contDiffOn_id
    fun s hs => ⟨by norm_num, hs⟩).differentiableOn (by norm_num)).differentiableAt (Ioi_mem_nhds (by linarith))).hasDerivAt)

example (num : AsNumber ℝ) := C99_theta_violated (num := num) (exCall_details true) rfl (by norm_num [OptDetails.flat]) (.inl rfl)
  (f := fun t => exPrice 100 (20 * Real.sqrt t)) (fun x h _ => exPrice_eq (by norm_num) (by norm_num at h; linarith) (by norm_num))
  (fun x h _ => (((exPrice_smooth (f := fun _ => 100) (g := fun t => 20 * Real.sqrt t) (S := Set.Ioi 0) contDiffOn_const
    (contDiffOn_const.mul (contDiffOn_id.sqrt fun t ht => ne_of_gt ht)) fun t ht => ⟨by norm_num, mul_pos (by norm_num) (Real.sqrt_pos.2 ht)⟩).differentiableOn
      (by norm_num)).differentiableAt (Ioi_mem_nhds (by norm_num at h; linarith))).hasDerivAt)

theorem exNormalD : normalD (.ok 1) 90 100 20 = .ok (20, 1 / 2) := by
  simp only [normalD, volOfTime, pySqrt, Py.ok_bind]
  norm_num [pyDiv]

example (num : AsNumber ℝ) := C99_formula (num := num) (exCall_details false) rfl (by norm_num [OptDetails.flat]) rfl (x := normalCdf (1 / 2)) (y := normalPdf (1 / 2))
  (by simp [flatNormal, normalFormula, exNormalD, codeDist]) (by simp [flatNormal, normalFormula, exNormalD, codeDist, pySqrt])

theorem exExpired_details (b : Bool) : (flatNormal 0 b).details floatCal 0 (some 90) = .ok ⟨some 0, some 0, some 100, 90, some 20, 0⟩ := by
  simp [flatNormal, OptModel.details, Fwd.optionForward, Fwd.truthy, Vol.eval, OptModel.time, Vol.dayCount, Fwd.dayCount, floatCal]

example (num : AsNumber ℝ) := C99_flat (num := num) (exExpired_details true) rfl (by norm_num [OptDetails.flat])

theorem exLater_details (b : Bool) : (flatNormal 5 b).details floatCal 6 (some 90) = .ok ⟨some 5, some 6, some 100, 90, some 20, 1⟩ := by
  simp [flatNormal, OptModel.details, Fwd.optionForward, Fwd.truthy, Vol.eval, OptModel.time, Vol.dayCount, Fwd.dayCount, floatCal]
  norm_num

example (num : AsNumber ℝ) := C71_partial (num := num) (exCall_details true) (exLater_details true) ⟨rfl, rfl, rfl, rfl⟩ rfl rfl

example := (C71_date_violated (num := fun _ => .error .type) (exCall_details true) rfl (by norm_num [OptDetails.flat]) rfl).2 rfl rfl (by norm_num) (by norm_num)

example := (C71_date_violated (num := fun _ => .error .type) (exCall_details false) rfl (by norm_num [OptDetails.flat]) rfl).1 rfl (.inl rfl)

example (s : Option ℝ) := C100_spread (inner := intrinsicFormula) (s := s) (time := .ok 1) (K := 90) (F := 100) (σ := 20) (f := fun K => 100 - K) (f' := fun _ => -1)
  (fun x h h' => by simp only [intrinsicFormula]; rw [max_eq_left (by norm_num at h h'; linarith)])
  (fun x _ _ => by simpa using (hasDerivAt_id x).const_sub 100)

example (s : Option ℝ) := C100_range (inner := intrinsicFormula) (s := s) (time := .ok 1) (K := 100) (F := 100) (σ := 20) (lo := 0.00005) (hi := 0)
  (by simp [intrinsicFormula]; norm_num) (by simp [intrinsicFormula]; norm_num) (by norm_num) (by norm_num)

end Dcf
