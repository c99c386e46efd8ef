import Verif.Model.RoundedForward
import Verif.Props.RoundedInterp
import Verif.Props.RoundedRates
import Verif.Props.RoundedOptions
import Verif.Props.Forward

/-! # C186: discount factor curves and forward prices in floating point arithmetic -/

set_option linter.unusedSectionVars false
set_option linter.unusedSimpArgs false
set_option linter.unusedVariables false

namespace Dcf

open Spec

section
variable {p : ℕ} {rnd exp log : ℝ → ℝ}

/-- C186: without rounding factors, rates and forward prices are those of the model. -/
theorem C186_unrounded {D P : Type} [LinearOrder D] (cal : Cal D P) :
    (∀ (c : IRCurve D P) (same : Bool) {s e : D} {ys ye : ℝ}, c.call cal s = .ok ys → c.call cal e = .ok ye →
      c.discountFactorOf cal same s e = Rounded.curveFactor id same ys ye ∧
      ∀ t, s ≠ e → c.dayCount cal s e = .ok t → c.discountRateOf cal same s e = Rounded.curveRate id Real.log same ys ye t) ∧
    (∀ (dates : List D) (data : List ℝ) (i : Option FuncSpec) (o? : Option D) (dc : DayCountArg D) (y : ℝ) (c : ForwardCurve D) {last x : D} {v tl t : ℝ},
      ForwardCurve.new cal dates data i o? dc (.flat y) = .ok c → pyLast c.base.domain = .ok last → last < x → c.base.call cal last = .ok (some v) →
      c.base.time cal last = .ok tl → c.base.time cal x = .ok t → c.price cal x = some <$> Rounded.forwardPrice id Real.exp v y tl t) := by
  refine ⟨fun c same s e ys ye hs he => ?_, fun dates data i o? dc y c last x v tl t hc hl hx hv h1 h2 => ?_⟩
  · have hF : c.discountFactorOf cal same s e = Rounded.curveFactor id same ys ye := by
      unfold IRCurve.discountFactorOf Rounded.curveFactor Rounded.div
      cases same <;> simp [hs, he]
    refine ⟨hF, fun t hse ht => ?_⟩
    simp only [IRCurve.discountRateOf, hse, false_and, if_false, Py.ok_bind, hF, ht, Rounded.curveRate]
    cases Rounded.curveFactor id same ys ye with
    | error _ => simp
    | ok d =>
      simp only [Py.ok_bind, continuousRate, Rounded.continuousRate, pyLog, Rounded.div, id_map]
      by_cases h : 0 < d <;> simp [h]
  · rw [ForwardCurve.new, Py.bind_eq_ok] at hc
    obtain ⟨b, -, hb⟩ := hc
    have hob : b.origin.isSome = true := by
      by_contra h
      simp only [h, if_false, Except.ok.injEq, Bool.false_eq_true] at hb
      subst hb
      simp only [DateCurve.time] at h1
      cases ho : b.origin <;> simp_all [pyDate]
    simp only [hob, if_true, Except.ok.injEq] at hb
    subst hb
    simp only at hl hv h1 h2
    simp only [ForwardCurve.price, hl, Py.ok_bind, if_neg (not_le.2 hx), hv, h1, h2, pyNum, Rounded.forwardPrice, Rounded.yieldFactor, Rounded.div, id_map, id]
    cases pyDiv (Real.exp (-t * y)) (Real.exp (-tl * y)) <;> simp

/-- C186 (factors): factors are positive, miss the quotient of the values by one rounding, are exactly one over an empty period, and at most one if the values do
not increase; a lower value gives no higher factor. -/
theorem C186_factor (R : Rounding p rnd) (hp : 4 ≤ p) {a b c : ℝ} (ha : 0 < a) (hb : 0 < b) :
    (∃ d, Rounded.curveFactor rnd false a b = .ok d ∧ 0 < d ∧ |d - b / a| ≤ (2 : ℝ) ^ (-(p : ℤ)) * (b / a) ∧ (b ≤ a → d ≤ 1) ∧ (a ≤ b → 1 ≤ d) ∧
      (b ≤ c → ∃ d', Rounded.curveFactor rnd false a c = .ok d' ∧ d ≤ d')) ∧
    Rounded.curveFactor rnd false a a = .ok 1 ∧ Rounded.curveFactor rnd true a b = .ok b := by
  have e : ∀ b, Rounded.curveFactor rnd false a b = .ok (rnd (b / a)) := fun b => by simp [Rounded.curveFactor, Rounded.div, pyDiv_ok ha.ne']
  have hq : 0 < b / a := div_pos hb ha
  have h1 : IsFloat p 1 := IsFloat.one (by omega)
  refine ⟨⟨_, e b, ?_, ?_, fun h => ?_, fun h => ?_, fun h => ⟨_, e c, ?_⟩⟩, ?_, rfl⟩
  · obtain ⟨δ, hδ, e⟩ := R.factor (by omega) (b / a)
    rw [e]; exact mul_pos hq (one_add_pos (ulp_le hp) hδ)
  · have := R.err (by omega) (b / a)
    rwa [abs_of_pos hq] at this
  · exact R.le_of_le ((div_le_one ha).2 h) h1
  · exact R.ge_of_ge ((one_le_div ha).2 h) h1
  · exact R.mono (div_le_div_of_nonneg_right h ha.le)
  · rw [e, div_self ha.ne', R.one (by omega)]

/-- C186 (adjacent periods): the factors of adjacent periods multiply to the factor of the whole up to five units of rounding. -/
theorem C186_adjacent (R : Rounding p rnd) (hp : 4 ≤ p) {a b c : ℝ} (ha : 0 < a) (hb : 0 < b) (hc : 0 < c) :
    ∃ d₁ d₂ d, Rounded.curveFactor rnd false a b = .ok d₁ ∧ Rounded.curveFactor rnd false b c = .ok d₂ ∧ Rounded.curveFactor rnd false a c = .ok d ∧
      |rnd (d₁ * d₂) - d| ≤ 5 * (2 : ℝ) ^ (-(p : ℤ)) * d := by
  have e : ∀ a b : ℝ, 0 < a → Rounded.curveFactor rnd false a b = .ok (rnd (b / a)) := fun a b h => by
    simp [Rounded.curveFactor, Rounded.div, pyDiv_ok h.ne']
  have hu := ulp_le hp
  obtain ⟨δ₁, h1, e1⟩ := R.factor (by omega) (b / a)
  obtain ⟨δ₂, h2, e2⟩ := R.factor (by omega) (c / b)
  obtain ⟨δ₃, h3, e3⟩ := R.factor (by omega) (rnd (b / a) * rnd (c / b))
  obtain ⟨δ₄, h4, e4⟩ := R.factor (by omega) (c / a)
  have p4 := one_add_pos hu h4
  have hq : 0 < c / a := div_pos hc ha
  refine ⟨_, _, _, e a b ha, e b c hb, e a c ha, ?_⟩
  have k1 : |(1 + δ₁) - 1| ≤ 1 * (2 : ℝ) ^ (-(p : ℤ)) := by simpa using h1
  have k2 := factor_mul hu (by norm_num) k1 h2
  have k3 := factor_mul hu (by norm_num) k2 h3
  have k4 := factor_div hu k3 h4
  have eq : rnd (rnd (b / a) * rnd (c / b)) - rnd (c / a) = ((1 + δ₁) * (1 + δ₂) * (1 + δ₃) / (1 + δ₄) - 1) * rnd (c / a) := by
    rw [e3, e1, e2, e4]
    field_simp
  have hd : 0 < rnd (c / a) := by rw [e4]; exact mul_pos hq p4
  rw [eq, abs_mul, abs_of_pos hd]
  refine mul_le_mul_of_nonneg_right (k4.trans ?_) hd.le
  exact mul_le_mul_of_nonneg_right (by norm_num) ulp_nonneg

/-- C186 (violation): with the values 1, 49/64 and 1/2 the factors of the two periods do not multiply to the value 1/2. -/
theorem C186_adjacent_violated (R : Rounding 53 rnd) :
    ∃ d₁ d₂, Rounded.curveFactor rnd false 1 (49 / 64) = .ok d₁ ∧ Rounded.curveFactor rnd false (49 / 64) (1 / 2) = .ok d₂ ∧
      Rounded.curveFactor rnd false 1 (1 / 2) = .ok (1 / 2) ∧ rnd (d₁ * d₂) = 1 / 2 - 2 ^ (-54 : ℤ) ∧ rnd (d₁ * d₂) ≠ 1 / 2 := by
  have e1 : rnd (49 / 64 / 1) = 49 / 64 := by
    rw [div_one]; exact R.eq_self ⟨49, -6, by norm_num, by norm_num⟩
  have e2 : rnd (1 / 2 / (49 / 64)) = 5882252574524729 * 2 ^ (-53 : ℤ) :=
    rnd_near R (e := -1) ⟨5882252574524729, -53, by norm_num, by norm_num⟩ (by norm_num) (by norm_num) (by norm_num) (by norm_num [abs_lt])
  have e3 : rnd (1 / 2 / 1) = 1 / 2 := by
    rw [div_one]; exact R.eq_self ⟨1, -1, by norm_num, by norm_num⟩
  have e4 : rnd (49 / 64 * (5882252574524729 * 2 ^ (-53 : ℤ))) = 1 / 2 - 2 ^ (-54 : ℤ) :=
    rnd_near R (e := -2) ⟨2 ^ 53 - 1, -54, by norm_num, by norm_num⟩ (by norm_num) (by norm_num) (by norm_num) (by norm_num [abs_lt])
  refine ⟨49 / 64, 5882252574524729 * 2 ^ (-53 : ℤ), ?_, ?_, ?_, e4, ?_⟩
  · simp only [Rounded.curveFactor, Rounded.div, pyDiv_ok one_ne_zero, Py.map_ok, e1]; rfl
  · simp only [Rounded.curveFactor, Rounded.div, pyDiv_ok (by norm_num : (49 / 64 : ℝ) ≠ 0), Py.map_ok, e2]; rfl
  · simp only [Rounded.curveFactor, Rounded.div, pyDiv_ok one_ne_zero, Py.map_ok, e3]; rfl
  · rw [e4]; norm_num

/-- C186 (rates): with a logarithm of relative error `w` the rate of a period misses the exact rate by a few units of rounding of the rate and of one over the
length of the period. -/
theorem C186_rate (R : Rounding p rnd) (hp : 4 ≤ p) {w : ℝ} (hlog : ∀ y, 0 < y → |log y - Real.log y| ≤ w * |Real.log y|) {a b t : ℝ} (ha : 0 < a) (hb : 0 < b)
    (ht : 0 < t) :
    ∃ r, Rounded.curveRate rnd log false a b t = .ok r ∧
      |r - -Real.log (b / a) / t| ≤ ((1 + w) * (1 + (2 : ℝ) ^ (-(p : ℤ))) - 1) * |Real.log (b / a) / t| +
        2 * (1 + w) * (1 + (2 : ℝ) ^ (-(p : ℤ))) * (2 : ℝ) ^ (-(p : ℤ)) / t := by
  obtain ⟨⟨d, h1, h2, h3, -⟩, -⟩ := C186_factor R hp (c := 0) ha hb
  have hu := ulp_le hp
  have hq : 0 < b / a := div_pos hb ha
  have hn := log_near h2 hq (by linarith) h3
  have hw : 0 ≤ w := by
    have := (abs_nonneg _).trans (hlog (Real.exp 1) (Real.exp_pos 1))
    simpa using this
  obtain ⟨δ, hδ, e⟩ := R.factor (by omega) (-log d / t)
  refine ⟨rnd (-log d / t), ?_, ?_⟩
  · simp [Rounded.curveRate, h1, Rounded.continuousRate, h2, Rounded.div, pyDiv_ok ht.ne']
  · set u := (2 : ℝ) ^ (-(p : ℤ)) with hud
    have hu0 : 0 ≤ u := ulp_nonneg
    set L := Real.log (b / a) with hL
    have g1 : |log d - L| ≤ w * |L| + 2 * (1 + w) * u := by
      have h := hlog d h2
      have b1 : |Real.log d| ≤ |L| + 2 * u := by
        have := abs_sub_abs_le_abs_sub (Real.log d) L
        linarith
      have b2 : w * |Real.log d| ≤ w * (|L| + 2 * u) := mul_le_mul_of_nonneg_left b1 hw
      have := abs_sub_le (log d) (Real.log d) L
      nlinarith
    have g2 : |log d| ≤ (1 + w) * |L| + 2 * (1 + w) * u := by
      have := abs_sub_abs_le_abs_sub (log d) L
      nlinarith
    have eq : rnd (-log d / t) - -L / t = -((log d - L) + log d * δ) / t := by rw [e]; field_simp; ring
    rw [eq, abs_div, abs_neg, abs_of_pos ht]
    have b3 : |log d * δ| ≤ ((1 + w) * |L| + 2 * (1 + w) * u) * u := by
      rw [abs_mul]; exact mul_le_mul g2 hδ (abs_nonneg _) ((abs_nonneg _).trans g2)
    have b4 := abs_add_le (log d - L) (log d * δ)
    rw [abs_div, abs_of_pos ht, mul_div_assoc', ← add_div]
    refine div_le_div_of_nonneg_right ?_ ht.le
    nlinarith

theorem yieldFactor_near (R : Rounding p rnd) (hp : 1 ≤ p) {v : ℝ} (hv : v < 1) (hexp : ∀ x, |exp x - Real.exp x| ≤ v * Real.exp x) (y t : ℝ) :
    (1 - v) * Real.exp (-((2 : ℝ) ^ (-(p : ℤ)) * |t * y|)) * Real.exp (-t * y) ≤ Rounded.yieldFactor rnd exp y t ∧
    Rounded.yieldFactor rnd exp y t ≤ (1 + v) * Real.exp ((2 : ℝ) ^ (-(p : ℤ)) * |t * y|) * Real.exp (-t * y) := by
  have h := abs_le.1 (hexp (rnd (-t * y)))
  have hv0 : 0 ≤ v := by
    have := (abs_nonneg _).trans (hexp 0)
    simpa using this
  have he := abs_le.1 (R.err hp (-t * y))
  rw [show |-t * y| = |t * y| by rw [neg_mul, abs_neg]] at he
  unfold Rounded.yieldFactor
  rw [mul_assoc, mul_assoc, ← Real.exp_add, ← Real.exp_add]
  have l1 : Real.exp (-((2 : ℝ) ^ (-(p : ℤ)) * |t * y|) + -t * y) ≤ Real.exp (rnd (-t * y)) := Real.exp_le_exp.2 (by linarith)
  have l2 : Real.exp (rnd (-t * y)) ≤ Real.exp ((2 : ℝ) ^ (-(p : ℤ)) * |t * y| + -t * y) := Real.exp_le_exp.2 (by linarith)
  constructor
  · have := mul_le_mul_of_nonneg_left l1 (by linarith : 0 ≤ 1 - v); linarith
  · have := mul_le_mul_of_nonneg_left l2 (by linarith : 0 ≤ 1 + v); linarith

theorem forwardPrice_eq {y : ℝ} (h : ∀ t, 0 < Rounded.yieldFactor rnd exp y t) (R : Rounding p rnd) (hp : 4 ≤ p) (P tl t : ℝ) :
    Rounded.forwardPrice rnd exp P y tl t = .ok (rnd (P / rnd (Rounded.yieldFactor rnd exp y t / Rounded.yieldFactor rnd exp y tl))) := by
  obtain ⟨δ, hδ, e⟩ := R.factor (by omega : 1 ≤ p) (Rounded.yieldFactor rnd exp y t / Rounded.yieldFactor rnd exp y tl)
  have h0 : rnd (Rounded.yieldFactor rnd exp y t / Rounded.yieldFactor rnd exp y tl) ≠ 0 := by
    rw [e]; exact (mul_pos (div_pos (h t) (h tl)) (one_add_pos (ulp_le hp) hδ)).ne'
  simp only [Rounded.forwardPrice, Rounded.div, pyDiv_ok (h tl).ne', Py.map_ok, Py.ok_bind, pyDiv_ok h0]

/-- C186 (forward prices): with an exponential function of relative error `v` a forward price after the last date misses the documented one by the factor given, so
the error grows with yield and time from the origin. -/
theorem C186_forward (R : Rounding p rnd) (hp : 4 ≤ p) {v : ℝ} (hv : v < 1) (hexp : ∀ x, |exp x - Real.exp x| ≤ v * Real.exp x) {P y tl t : ℝ} (hP : 0 < P) :
    ∃ f, Rounded.forwardPrice rnd exp P y tl t = .ok f ∧ 0 < f ∧
      P * Real.exp (y * (t - tl)) ≤ f * ((1 + v) * (1 + (2 : ℝ) ^ (-(p : ℤ))) / ((1 - v) * (1 - (2 : ℝ) ^ (-(p : ℤ)))) *
        Real.exp ((2 : ℝ) ^ (-(p : ℤ)) * (|t * y| + |tl * y|))) ∧
      f ≤ P * Real.exp (y * (t - tl)) * ((1 + v) * (1 + (2 : ℝ) ^ (-(p : ℤ))) / ((1 - v) * (1 - (2 : ℝ) ^ (-(p : ℤ)))) *
        Real.exp ((2 : ℝ) ^ (-(p : ℤ)) * (|t * y| + |tl * y|))) := by
  have hu := ulp_le hp
  have hv0 : 0 ≤ v := by
    have := (abs_nonneg _).trans (hexp 0)
    simpa using this
  have hn := yieldFactor_near R (by omega : 1 ≤ p) hv hexp y
  have h1v : 0 < 1 - v := by linarith
  have hpos : ∀ t, 0 < Rounded.yieldFactor rnd exp y t := fun t => lt_of_lt_of_le (by positivity) (hn t).1
  set A := Rounded.yieldFactor rnd exp y t with hA
  set B := Rounded.yieldFactor rnd exp y tl with hB
  have hA0 : 0 < A := hpos t
  have hB0 : 0 < B := hpos tl
  obtain ⟨δ₁, h1, e1⟩ := R.factor (by omega : 1 ≤ p) (A / B)
  obtain ⟨δ₂, h2, e2⟩ := R.factor (by omega : 1 ≤ p) (P / rnd (A / B))
  have p1 := one_add_pos hu h1
  have p2 := one_add_pos hu h2
  have ef : rnd (P / rnd (A / B)) = P * (B / A) * ((1 + δ₂) / (1 + δ₁)) := by
    rw [e2, e1]; field_simp
  refine ⟨_, forwardPrice_eq hpos R hp P tl t, ?_, ?_⟩
  · rw [ef]; positivity
  rw [ef]
  set u := (2 : ℝ) ^ (-(p : ℤ)) with hud
  have hu0 : 0 ≤ u := ulp_nonneg
  have hu1 : 0 < 1 - u := by linarith
  have q1 : (1 + δ₂) / (1 + δ₁) ≤ (1 + u) / (1 - u) :=
    div_le_div₀ (by linarith) (by linarith [(abs_le.1 h2).2]) hu1 (by linarith [(abs_le.1 h1).1])
  have q2 : (1 + δ₁) / (1 + δ₂) ≤ (1 + u) / (1 - u) :=
    div_le_div₀ (by linarith) (by linarith [(abs_le.1 h1).2]) hu1 (by linarith [(abs_le.1 h2).1])
  have hE : Real.exp (y * (t - tl)) = Real.exp (-tl * y) / Real.exp (-t * y) := by rw [← Real.exp_sub]; ring_nf
  have ex : Real.exp (u * (|t * y| + |tl * y|)) = Real.exp (u * |t * y|) * Real.exp (u * |tl * y|) := by rw [← Real.exp_add]; ring_nf
  have r1 : B / A ≤ Real.exp (y * (t - tl)) * ((1 + v) / (1 - v) * Real.exp (u * (|t * y| + |tl * y|))) := by
    rw [div_le_iff₀ hA0]
    refine (hn tl).2.trans ?_
    have := mul_le_mul_of_nonneg_left (hn t).1 (by positivity : 0 ≤ Real.exp (y * (t - tl)) * ((1 + v) / (1 - v) * Real.exp (u * (|t * y| + |tl * y|))))
    refine le_trans (le_of_eq ?_) this
    rw [hE, ex, Real.exp_neg (u * |t * y|)]
    field_simp
  have r2 : Real.exp (y * (t - tl)) ≤ B / A * ((1 + v) / (1 - v) * Real.exp (u * (|t * y| + |tl * y|))) := by
    rw [div_mul_eq_mul_div, le_div_iff₀ hA0]
    have a1 := mul_le_mul_of_nonneg_left (hn t).2 (Real.exp_pos (y * (t - tl))).le
    have a2 := mul_le_mul_of_nonneg_right (hn tl).1 (by positivity : 0 ≤ (1 + v) / (1 - v) * Real.exp (u * (|t * y| + |tl * y|)))
    refine a1.trans (le_trans (le_of_eq ?_) a2)
    rw [hE, ex, Real.exp_neg (u * |tl * y|)]
    field_simp
  set E := Real.exp (u * (|t * y| + |tl * y|)) with hEE
  have hE0 : 0 < E := Real.exp_pos _
  set G := Real.exp (y * (t - tl)) with hG
  have hG0 : 0 < G := Real.exp_pos _
  have hsplit : (1 + v) * (1 + u) / ((1 - v) * (1 - u)) * E = (1 + v) / (1 - v) * E * ((1 + u) / (1 - u)) := by field_simp
  rw [hsplit]
  constructor
  · have c1 : 1 ≤ (1 + δ₂) / (1 + δ₁) * ((1 + u) / (1 - u)) := by
      have := mul_le_mul_of_nonneg_left q2 (by positivity : 0 ≤ (1 + δ₂) / (1 + δ₁))
      refine le_trans (le_of_eq ?_) this
      field_simp
    calc P * G ≤ P * (B / A * ((1 + v) / (1 - v) * E)) := mul_le_mul_of_nonneg_left r2 hP.le
      _ ≤ P * (B / A * ((1 + v) / (1 - v) * E)) * ((1 + δ₂) / (1 + δ₁) * ((1 + u) / (1 - u))) :=
          le_mul_of_one_le_right (by positivity) c1
      _ = _ := by ring
  · calc P * (B / A) * ((1 + δ₂) / (1 + δ₁)) ≤ P * (G * ((1 + v) / (1 - v) * E)) * ((1 + u) / (1 - u)) :=
          mul_le_mul (mul_le_mul_of_nonneg_left r1 hP.le) q1 (by positivity) (by positivity)
      _ = _ := by ring

/-- C186 (order of forward prices): with a positive and monotone exponential function and a non-negative yield forward prices never fall after the last date, without any
tolerance; with the yield zero they stay at the last price. -/
theorem C186_forward_order (R : Rounding p rnd) (hp : 4 ≤ p) (hexp : Monotone exp) (hpos : ∀ x, 0 < exp x) {P y tl t t' : ℝ} (hP : 0 ≤ P) (hf : IsFloat p P) (hy : 0 ≤ y)
    (h : tl ≤ t) (h' : t ≤ t') :
    (∃ f f', Rounded.forwardPrice rnd exp P y tl t = .ok f ∧ Rounded.forwardPrice rnd exp P y tl t' = .ok f' ∧ P ≤ f ∧ f ≤ f') ∧
    Rounded.forwardPrice rnd exp P 0 tl t = .ok P := by
  have hq : ∀ y t, 0 < Rounded.yieldFactor rnd exp y t := fun y t => hpos _
  have hm : ∀ {s t}, s ≤ t → Rounded.yieldFactor rnd exp y t ≤ Rounded.yieldFactor rnd exp y s := fun {s t} h =>
    hexp (R.mono (mul_le_mul_of_nonneg_right (neg_le_neg h) hy))
  have hd : ∀ t, 0 < rnd (Rounded.yieldFactor rnd exp y t / Rounded.yieldFactor rnd exp y tl) := fun t => by
    obtain ⟨δ, hδ, e⟩ := R.factor (by omega : 1 ≤ p) (Rounded.yieldFactor rnd exp y t / Rounded.yieldFactor rnd exp y tl)
    rw [e]; exact mul_pos (div_pos (hq y t) (hq y tl)) (one_add_pos (ulp_le hp) hδ)
  refine ⟨⟨_, _, forwardPrice_eq (hq y) R hp P tl t, forwardPrice_eq (hq y) R hp P tl t', R.ge_of_ge ?_ hf, R.mono ?_⟩, ?_⟩
  · rw [le_div_iff₀ (hd t)]
    refine mul_le_of_le_one_right hP (R.le_of_le ?_ (IsFloat.one (by omega)))
    exact (div_le_one (hq y tl)).2 (hm h)
  · exact div_le_div_of_nonneg_left hP (hd t') (R.mono (div_le_div_of_nonneg_right (hm h') (hq y tl).le))
  · rw [forwardPrice_eq (hq 0) R hp P tl t]
    have : Rounded.yieldFactor rnd exp 0 t = Rounded.yieldFactor rnd exp 0 tl := by simp [Rounded.yieldFactor]
    rw [this, div_self (hq 0 tl).ne', R.one (by omega), div_one, R.eq_self hf]

/-! ### Examples -/

example : ∃ rnd, Rounding 53 rnd ∧
    (∃ d, Rounded.curveFactor rnd false (49 / 64) (1 / 2) = .ok d ∧ 0 < d ∧ |d - 1 / 2 / (49 / 64)| ≤ (2 : ℝ) ^ (-(53 : ℕ) : ℤ) * (1 / 2 / (49 / 64)) ∧
      ((1 / 2 : ℝ) ≤ 49 / 64 → d ≤ 1) ∧ ((49 / 64 : ℝ) ≤ 1 / 2 → 1 ≤ d) ∧ ((1 / 2 : ℝ) ≤ 3 / 4 → ∃ d', Rounded.curveFactor rnd false (49 / 64) (3 / 4) = .ok d' ∧ d ≤ d')) :=
  let ⟨rnd, R⟩ := exists_rounding (p := 53) (by norm_num)
  ⟨rnd, R, (C186_factor R (by norm_num) (by norm_num) (by norm_num)).1⟩

example : ∃ rnd, Rounding 53 rnd ∧ ∃ d₁ d₂ d, Rounded.curveFactor rnd false 1 (49 / 64) = .ok d₁ ∧ Rounded.curveFactor rnd false (49 / 64) (1 / 2) = .ok d₂ ∧
    Rounded.curveFactor rnd false 1 (1 / 2) = .ok d ∧ |rnd (d₁ * d₂) - d| ≤ 5 * (2 : ℝ) ^ (-(53 : ℕ) : ℤ) * d :=
  let ⟨rnd, R⟩ := exists_rounding (p := 53) (by norm_num)
  ⟨rnd, R, C186_adjacent R (by norm_num) (by norm_num) (by norm_num) (by norm_num)⟩

example : ∃ rnd, Rounding 53 rnd ∧ ∃ d₁ d₂, Rounded.curveFactor rnd false 1 (49 / 64) = .ok d₁ ∧ Rounded.curveFactor rnd false (49 / 64) (1 / 2) = .ok d₂ ∧
    Rounded.curveFactor rnd false 1 (1 / 2) = .ok (1 / 2) ∧ rnd (d₁ * d₂) = 1 / 2 - 2 ^ (-54 : ℤ) ∧ rnd (d₁ * d₂) ≠ 1 / 2 :=
  let ⟨rnd, R⟩ := exists_rounding (p := 53) (by norm_num)
  ⟨rnd, R, C186_adjacent_violated R⟩

example : ∃ rnd, Rounding 53 rnd ∧ ∃ r, Rounded.curveRate rnd (fun y => rnd (Real.log y)) false 1 (49 / 64) 5 = .ok r :=
  let ⟨rnd, R⟩ := exists_rounding (p := 53) (by norm_num)
  let ⟨r, h, _⟩ := C186_rate R (by norm_num) (rounded_log R (by norm_num)) (a := 1) (b := 49 / 64) (t := 5) one_pos (by norm_num) (by norm_num)
  ⟨rnd, R, r, h⟩

example : ∃ rnd, Rounding 53 rnd ∧ ∃ f, Rounded.forwardPrice rnd Real.exp 100 (1 / 20) 1 (5 / 4) = .ok f ∧ 0 < f :=
  let ⟨rnd, R⟩ := exists_rounding (p := 53) (by norm_num)
  let ⟨f, h, h0, _⟩ := C186_forward R (by norm_num) (v := 0) (by norm_num) exact_exp (P := 100) (y := 1 / 20) (tl := 1) (t := 5 / 4) (by norm_num)
  ⟨rnd, R, f, h, h0⟩

example : ∃ rnd, Rounding 53 rnd ∧ (∃ f f', Rounded.forwardPrice rnd Real.exp 100 (1 / 20) 1 (5 / 4) = .ok f ∧
    Rounded.forwardPrice rnd Real.exp 100 (1 / 20) 1 2 = .ok f' ∧ 100 ≤ f ∧ f ≤ f') :=
  let ⟨rnd, R⟩ := exists_rounding (p := 53) (by norm_num)
  ⟨rnd, R, (C186_forward_order R (by norm_num) Real.exp_monotone Real.exp_pos (by norm_num) ⟨100, 0, by norm_num, by norm_num⟩ (by norm_num) (by norm_num)
    (by norm_num)).1⟩

end

end Dcf
