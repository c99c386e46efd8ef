import Verif.Lemmas.Rounding
import Verif.Lemmas.Interp
import Mathlib.Analysis.SpecialFunctions.Exp

/-! # C166, C167, C168: floating point arithmetic -/

set_option linter.unusedSectionVars false
set_option linter.unusedSimpArgs false
set_option linter.unusedVariables false

namespace Dcf

/-! ### Error factors -/

theorem factor_mul {a δ k u : ℝ} (hu : u ≤ 1 / 16) (hk : 0 ≤ k) (h : |a - 1| ≤ k * u) (hδ : |δ| ≤ u) :
    |a * (1 + δ) - 1| ≤ (k + 1 + k / 16) * u := by
  have hu0 : 0 ≤ u := (abs_nonneg δ).trans hδ
  have e : a * (1 + δ) - 1 = (a - 1) + δ + (a - 1) * δ := by ring
  have h1 : |(a - 1) * δ| ≤ k * u * u := by rw [abs_mul]; exact mul_le_mul h hδ (abs_nonneg _) (by positivity)
  have h2 := abs_add_le (a - 1 + δ) ((a - 1) * δ)
  have h3 := abs_add_le (a - 1) δ
  have h4 : k * u * u ≤ k / 16 * u := by
    have : k * u * u ≤ k * u * (1 / 16) := mul_le_mul_of_nonneg_left hu (by positivity)
    linarith
  rw [e]; linarith

theorem factor_div {a δ k u : ℝ} (hu : u ≤ 1 / 16) (h : |a - 1| ≤ k * u) (hδ : |δ| ≤ u) :
    |a / (1 + δ) - 1| ≤ (k + 1) * (16 / 15) * u := by
  have hd := abs_le.1 hδ
  have hp : 15 / 16 ≤ 1 + δ := by linarith
  have e : a / (1 + δ) - 1 = (a - 1 - δ) / (1 + δ) := by field_simp; ring
  rw [e, abs_div, abs_of_pos (by linarith : 0 < 1 + δ), div_le_iff₀ (by linarith)]
  have h1 := abs_sub (a - 1) δ
  have h2 : 0 ≤ (k + 1) * u := by
    have := (abs_nonneg (a - 1 - δ)).trans h1
    linarith
  nlinarith

section
variable {p : ℕ} {rnd : ℝ → ℝ}

theorem ulp_le (hp : 4 ≤ p) : (2 : ℝ) ^ (-(p : ℤ)) ≤ 1 / 16 := by
  have : (2 : ℝ) ^ (-(p : ℤ)) ≤ (2 : ℝ) ^ (-4 : ℤ) := zpow_le_zpow_right₀ (by norm_num) (by omega)
  refine this.trans (by norm_num)

theorem ulp_nonneg : 0 ≤ (2 : ℝ) ^ (-(p : ℤ)) := zpow_nonneg (by norm_num) _

theorem one_add_pos {δ u : ℝ} (hu : u ≤ 1 / 16) (hδ : |δ| ≤ u) : 0 < 1 + δ := by
  have := (abs_le.1 hδ).1; linarith

/-! ### C166: compounding -/

/-- C166: without rounding the functions are those of the model. -/
theorem C166_unrounded (r t : ℝ) :
    Rounded.simpleCompounding id r t = simpleCompounding r t ∧ Rounded.simpleRate id r t = simpleRate r t ∧
    Rounded.continuousCompounding id Real.exp r t = continuousCompounding r t := by
  refine ⟨?_, ?_, rfl⟩
  · exact id_map _
  · unfold Rounded.simpleRate Rounded.div simpleRate
    cases pyDiv (1 : ℝ) r with
    | error e => rfl
    | ok x =>
      simp only [Py.map_ok, Py.ok_bind, id]
      cases pyDiv (x - 1) t <;> rfl

theorem rsimple (R : Rounding p rnd) (hp : 4 ≤ p) {r t : ℝ} (h : 0 ≤ r * t) :
    ∃ θ δ₂ δ₃, |θ| ≤ (2 : ℝ) ^ (-(p : ℤ)) ∧ |δ₂| ≤ (2 : ℝ) ^ (-(p : ℤ)) ∧ |δ₃| ≤ (2 : ℝ) ^ (-(p : ℤ)) ∧
      Rounded.simpleCompounding rnd r t = .ok (rnd (1 / rnd (1 + rnd (r * t)))) ∧
      rnd (1 / rnd (1 + rnd (r * t))) = 1 / ((1 + r * t) * (1 + θ) * (1 + δ₂)) * (1 + δ₃) := by
  obtain ⟨δ₁, h1, e1⟩ := R.factor (by omega) (r * t)
  obtain ⟨δ₂, h2, e2⟩ := R.factor (by omega) (1 + rnd (r * t))
  obtain ⟨δ₃, h3, e3⟩ := R.factor (by omega) (1 / rnd (1 + rnd (r * t)))
  have hq : 0 < 1 + r * t := by linarith
  refine ⟨r * t * δ₁ / (1 + r * t), δ₂, δ₃, ?_, h2, h3, ?_, ?_⟩
  · rw [abs_div, abs_of_pos hq, div_le_iff₀ hq, abs_mul, abs_of_nonneg h]
    have := mul_le_mul_of_nonneg_left h1 h
    have h0 : 0 ≤ (2 : ℝ) ^ (-(p : ℤ)) := ulp_nonneg
    linarith
  · unfold Rounded.simpleCompounding Rounded.div
    rw [pyDiv_ok]
    · rfl
    · have : 1 ≤ rnd (1 + rnd (r * t)) := R.ge_of_ge (by linarith [R.nonneg h]) (IsFloat.one (by omega))
      linarith
  · rw [e3, e2, e1]
    congr 3
    field_simp
    ring

/-- C166 (simple compounding): the relative error of a discount factor is at most four units of rounding; it is positive and at most one. -/
theorem C166_simple (R : Rounding p rnd) (hp : 4 ≤ p) {r t : ℝ} (h : 0 ≤ r * t) :
    ∃ d, Rounded.simpleCompounding rnd r t = .ok d ∧ |d - 1 / (1 + r * t)| ≤ 4 * (2 : ℝ) ^ (-(p : ℤ)) * (1 / (1 + r * t)) ∧ 0 < d ∧ d ≤ 1 := by
  obtain ⟨θ, δ₂, δ₃, h1, h2, h3, e, e'⟩ := rsimple R hp h
  have hu := ulp_le hp
  have hq : 0 < 1 + r * t := by linarith
  have p1 := one_add_pos hu h1
  have p2 := one_add_pos hu h2
  have p3 := one_add_pos hu h3
  refine ⟨_, e, ?_, ?_, ?_⟩
  · have k1 : |(1 + δ₃) - 1| ≤ 1 * (2 : ℝ) ^ (-(p : ℤ)) := by simpa using h3
    have k2 := factor_div hu (factor_div hu k1 h1) h2
    have : 1 / ((1 + r * t) * (1 + θ) * (1 + δ₂)) * (1 + δ₃) - 1 / (1 + r * t) = ((1 + δ₃) / (1 + θ) / (1 + δ₂) - 1) * (1 / (1 + r * t)) := by
      field_simp
    rw [e', this, abs_mul, abs_of_pos (by positivity : 0 < 1 / (1 + r * t))]
    refine mul_le_mul_of_nonneg_right (k2.trans ?_) (by positivity)
    exact mul_le_mul_of_nonneg_right (by norm_num) ulp_nonneg
  · rw [e']; positivity
  · have : 1 ≤ rnd (1 + rnd (r * t)) := R.ge_of_ge (by linarith [R.nonneg h]) (IsFloat.one (by omega))
    refine R.le_of_le ?_ (IsFloat.one (by omega))
    rw [div_le_one (by linarith)]; exact this

/-- C166 (order): discount factors never increase with rate or maturity, and are one at maturity zero, without any tolerance. -/
theorem C166_order (R : Rounding p rnd) (hp : 4 ≤ p) {r t r' t' : ℝ} (hr : 0 ≤ r) (ht : 0 ≤ t) (hr' : r ≤ r') (ht' : t ≤ t') :
    (∃ d d', Rounded.simpleCompounding rnd r t = .ok d ∧ Rounded.simpleCompounding rnd r' t' = .ok d' ∧ d' ≤ d) ∧
    Rounded.simpleCompounding rnd r 0 = .ok 1 := by
  have h : 0 ≤ r * t := mul_nonneg hr ht
  have hle : r * t ≤ r' * t' := mul_le_mul hr' ht' ht (hr.trans hr')
  obtain ⟨_, _, _, -, -, -, e, -⟩ := rsimple R hp h
  obtain ⟨_, _, _, -, -, -, e', -⟩ := rsimple R hp (h.trans hle)
  obtain ⟨_, _, _, -, -, -, e0, -⟩ := rsimple R hp (r := r) (t := 0) (by simp)
  have h1 : 1 ≤ rnd (1 + rnd (r * t)) := R.ge_of_ge (by linarith [R.nonneg h]) (IsFloat.one (by omega))
  refine ⟨⟨_, _, e, e', R.mono ?_⟩, ?_⟩
  · exact one_div_le_one_div_of_le (by linarith) (R.mono (by linarith [R.mono hle]))
  · rw [e0, mul_zero, R.zero, add_zero, R.one (by omega), div_one, R.one (by omega)]

theorem exp_err {exp : ℝ → ℝ} {v : ℝ} (hv : ∀ x, |exp x - Real.exp x| ≤ v * Real.exp x) {a b c : ℝ} (h : |a - b| ≤ c) :
    |exp a - Real.exp b| ≤ ((1 + v) * Real.exp c - 1) * Real.exp b := by
  have hv0 : 0 ≤ v := by
    have := (abs_nonneg _).trans (hv 0)
    simpa using this
  have a1 := hv a
  have hexp : Real.exp a = Real.exp (a - b) * Real.exp b := by rw [← Real.exp_add]; ring_nf
  have hE : 0 < Real.exp b := Real.exp_pos b
  have hc : 0 ≤ c := (abs_nonneg _).trans h
  have b1 : Real.exp (a - b) ≤ Real.exp c := Real.exp_le_exp.2 ((le_abs_self _).trans h)
  have b2 : 1 / Real.exp c ≤ Real.exp (a - b) := by
    rw [one_div, ← Real.exp_neg]
    exact Real.exp_le_exp.2 (by have := neg_abs_le (a - b); linarith)
  have hE1 : 1 ≤ Real.exp c := Real.one_le_exp hc
  generalize Real.exp c = E at *
  have b3 : |Real.exp (a - b) - 1| ≤ E - 1 := by
    rw [abs_le]
    refine ⟨?_, by linarith⟩
    have : 2 ≤ E + 1 / E := by
      have h0 : 0 < E := by linarith
      have : 0 ≤ (E - 1) ^ 2 / E := by positivity
      have e : (E - 1) ^ 2 / E = E + 1 / E - 2 := by field_simp; ring
      linarith
    linarith
  have c1 : |exp a - Real.exp b| ≤ |exp a - Real.exp a| + |Real.exp a - Real.exp b| := abs_sub_le _ _ _
  have c2 : |Real.exp a - Real.exp b| ≤ (E - 1) * Real.exp b := by
    rw [hexp, show Real.exp (a - b) * Real.exp b - Real.exp b = (Real.exp (a - b) - 1) * Real.exp b by ring, abs_mul, abs_of_pos hE]
    exact mul_le_mul_of_nonneg_right b3 hE.le
  have c3 : v * Real.exp a ≤ v * (E * Real.exp b) := by
    rw [hexp]
    exact mul_le_mul_of_nonneg_left (mul_le_mul_of_nonneg_right b1 hE.le) hv0
  have : ((1 + v) * E - 1) * Real.exp b = (E - 1) * Real.exp b + v * (E * Real.exp b) := by ring
  linarith

/-- C166 (continuous compounding): with an exponential function of relative error `v` the relative error is at most
`(1 + v) * exp (u * |r * t|) - 1`, so it grows with the exponent. -/
theorem C166_continuous (R : Rounding p rnd) (hp : 4 ≤ p) {exp : ℝ → ℝ} {v : ℝ} (hv : ∀ x, |exp x - Real.exp x| ≤ v * Real.exp x) {r : ℝ}
    (hr : IsFloat p r) (t : ℝ) :
    ∃ d, Rounded.continuousCompounding rnd exp r t = .ok d ∧
      |d - Real.exp (-(r * t))| ≤ ((1 + v) * Real.exp ((2 : ℝ) ^ (-(p : ℤ)) * |r * t|) - 1) * Real.exp (-(r * t)) := by
  have e0 : rnd (-1 * r) = -r := by rw [R.eq_self (by simpa using hr.neg)]; ring
  refine ⟨_, rfl, exp_err hv ?_⟩
  rw [e0, neg_mul, ← abs_neg (r * t)]
  exact R.err (by omega) _

/-- C166 (round trip): the rate got back from a discount factor is off by at most eight units of rounding times `(1 + r * t) / t`. -/
theorem C166_roundtrip (R : Rounding p rnd) (hp : 4 ≤ p) {r t : ℝ} (hr : 0 ≤ r) (ht : 0 < t) :
    ∃ d r', Rounded.simpleCompounding rnd r t = .ok d ∧ Rounded.simpleRate rnd d t = .ok r' ∧
      |r' - r| ≤ 8 * (2 : ℝ) ^ (-(p : ℤ)) * ((1 + r * t) / t) := by
  have h : 0 ≤ r * t := mul_nonneg hr ht.le
  obtain ⟨θ, δ₂, δ₃, h1, h2, h3, e, e'⟩ := rsimple R hp h
  have hu := ulp_le hp
  have hq : 0 < 1 + r * t := by linarith
  have p1 := one_add_pos hu h1
  have p2 := one_add_pos hu h2
  have p3 := one_add_pos hu h3
  set d := rnd (1 / rnd (1 + rnd (r * t))) with hd
  have hd0 : 0 < d := by rw [e']; positivity
  obtain ⟨δ₄, h4, e4⟩ := R.factor (by omega) (1 / d)
  obtain ⟨δ₅, h5, e5⟩ := R.factor (by omega) (rnd (1 / d) - 1)
  obtain ⟨δ₆, h6, e6⟩ := R.factor (by omega) (rnd (rnd (1 / d) - 1) / t)
  set u : ℝ := (2 : ℝ) ^ (-(p : ℤ)) with hudef
  have hu0 : 0 ≤ u := ulp_nonneg
  refine ⟨d, rnd (rnd (rnd (1 / d) - 1) / t), e, ?_, ?_⟩
  · unfold Rounded.simpleRate Rounded.div
    rw [pyDiv_ok hd0.ne', Py.map_ok, Py.ok_bind, pyDiv_ok ht.ne']; rfl
  · set T := (1 + θ) * (1 + δ₂) * (1 + δ₄) / (1 + δ₃) with hT
    have k1 : |(1 + θ) - 1| ≤ 1 * u := by simpa using h1
    have k2 := factor_mul hu (by norm_num) k1 h2
    have k3 := factor_mul hu (by norm_num) k2 h4
    have k4 : |T - 1| ≤ 5 * u := (factor_div hu k3 h3).trans (mul_le_mul_of_nonneg_right (by norm_num) hu0)
    have eq1 : rnd (1 / d) = (1 + r * t) * T := by
      rw [e4, e', hT]; field_simp
    set W := (1 + δ₅) * (1 + δ₆) with hW
    have kW1 : |(1 + δ₅) - 1| ≤ 1 * u := by simpa using h5
    have kW : |W - 1| ≤ (1 + 1 + 1 / 16) * u := factor_mul hu (by norm_num) kW1 h6
    have eq2 : rnd (rnd (rnd (1 / d) - 1) / t) - r = (r * t * (W - 1) + (1 + r * t) * (T - 1) * W) / t := by
      rw [e6, e5, eq1, hW]; field_simp; ring
    rw [eq2, abs_div, abs_of_pos ht, mul_div_assoc', div_le_div_iff_of_pos_right ht]
    have b1 : |r * t * (W - 1)| ≤ (1 + r * t) * ((1 + 1 + 1 / 16) * u) := by
      rw [abs_mul, abs_of_nonneg h]
      exact mul_le_mul (by linarith) kW (abs_nonneg _) hq.le
    have hWle : |W| ≤ 1.13 := by
      have := abs_sub_abs_le_abs_sub W 1
      rw [abs_one] at this
      have h16 : (1 + 1 + 1 / 16) * u ≤ 0.129 := by nlinarith
      linarith
    have b2 : |(1 + r * t) * (T - 1) * W| ≤ (1 + r * t) * (5 * u) * 1.13 := by
      rw [abs_mul, abs_mul, abs_of_pos hq]
      exact mul_le_mul (mul_le_mul_of_nonneg_left k4 hq.le) hWle (abs_nonneg _) (by positivity)
    have b3 := abs_add_le (r * t * (W - 1)) ((1 + r * t) * (T - 1) * W)
    nlinarith [mul_nonneg hq.le hu0]

/-- Adding less than half a unit to one. -/
theorem rnd_one_add (R : Rounding p rnd) (hp : 1 ≤ p) {y : ℝ} (h0 : 0 ≤ y) (hy : y ≤ (2 : ℝ) ^ (-(p : ℤ) - 1)) : rnd (1 + y) = 1 := by
  have h1 : 1 ≤ rnd (1 + y) := R.ge_of_ge (by linarith) (IsFloat.one hp)
  have h2 := R.nearest (1 + y) 1 (IsFloat.one hp)
  obtain ⟨k, hk⟩ := (R.float (1 + y)).multiple (e := 0) (by rw [zpow_zero, abs_of_nonneg (by linarith)]; exact h1)
  obtain ⟨j, hj⟩ := (IsFloat.one hp).multiple (e := 0) (by simp)
  set s : ℝ := (2 : ℝ) ^ (0 - (p : ℤ) + 1) with hs
  have hs0 : 0 < s := zpow_pos (by norm_num) _
  have hys : (2 : ℝ) ^ (-(p : ℤ) - 1) = s / 4 := by
    rw [hs, zero_sub, zpow_add₀ (by norm_num), zpow_sub₀ (by norm_num), zpow_one]; ring
  by_contra hne
  have hlt : 1 < rnd (1 + y) := lt_of_le_of_ne h1 (Ne.symm hne)
  have hkj : j + 1 ≤ k := by
    rw [hk, hj] at hlt
    have : (j : ℝ) < k := lt_of_mul_lt_mul_right hlt hs0.le
    exact_mod_cast this
  have : 1 + s ≤ rnd (1 + y) := by
    rw [hk]
    have hkj' : (j : ℝ) + 1 ≤ k := by exact_mod_cast hkj
    have := mul_le_mul_of_nonneg_right hkj' hs0.le
    nlinarith
  rw [abs_of_nonneg (by rw [hys] at hy; linarith), show (1 : ℝ) - (1 + y) = -y by ring, abs_neg, abs_of_nonneg h0] at h2
  rw [hys] at hy
  linarith

/-- C166 (violation): converting a rate to a discount factor and back does not return the rate: if rate times maturity is below half a unit of
rounding, a positive rate comes back as zero. -/
theorem C166_roundtrip_violated (R : Rounding p rnd) (hp : 4 ≤ p) {r t : ℝ} (hr : 0 < r) (ht : 0 < t) (hrt : r * t ≤ (2 : ℝ) ^ (-(p : ℤ) - 1)) :
    ∃ d, Rounded.simpleCompounding rnd r t = .ok d ∧ Rounded.simpleRate rnd d t = .ok 0 ∧ (0 : ℝ) ≠ r := by
  have h : 0 ≤ r * t := mul_nonneg hr.le ht.le
  obtain ⟨_, _, _, -, -, -, e, -⟩ := rsimple R hp h
  have h1 : rnd (r * t) ≤ (2 : ℝ) ^ (-(p : ℤ) - 1) := R.le_of_le hrt (IsFloat.two_zpow (by omega) _)
  rw [rnd_one_add R (by omega) (R.nonneg h) h1, div_one, R.one (by omega)] at e
  refine ⟨1, e, ?_, hr.ne⟩
  unfold Rounded.simpleRate Rounded.div
  rw [pyDiv_ok one_ne_zero, Py.map_ok, div_one, R.one (by omega), Py.ok_bind, sub_self, R.zero, pyDiv_ok ht.ne', zero_div, Py.map_ok, R.zero]


/-! ### C167: linear interpolation -/

theorem roundedLinear_index (R : Rounding p rnd) (hp : 4 ≤ p) {l : List (ℝ × ℝ)} (hl : StrictX l) (h2 : 2 ≤ l.length) (x : ℝ) :
    ∃ i, ∃ hi : i < l.length, 1 ≤ i ∧
      (∀ j (hj : j < l.length), 1 ≤ j → j < i → l[j].1 < x) ∧
      (∀ j (hj : j < l.length), i ≤ j → j < l.length - 1 → x ≤ l[j].1) ∧
      Rounded.linearCall rnd (ptsOf l) x =
        .ok (rnd (l[i - 1].2 + rnd (rnd (rnd (l[i].2 - l[i - 1].2) * rnd (l[i - 1].1 - x)) / rnd (l[i - 1].1 - l[i].1)))) := by
  obtain ⟨i, e, h1', h2', h3, h4⟩ := bisectLeft_spec (a := (ptsOf l).xs) (by simpa [ptsOf] using hl.sorted) x
      (lo := 1) (hi := (ptsOf l).xs.length - 1) (by rw [ptsOf_xs_length]; omega) (by omega)
  rw [ptsOf_xs_length] at h2' e
  have hi : i < l.length := by omega
  have hi1 : i - 1 < l.length := by omega
  have hlt : l[i - 1].1 < l[i].1 := hl.lt hi (by omega)
  refine ⟨i, hi, h1', ?_, ?_, ?_⟩
  · intro j hj a b; simpa [ptsOf] using h3 j (by simpa [ptsOf] using hj) a b
  · intro j hj a b; simpa [ptsOf] using h4 j (by simpa [ptsOf] using hj) a (by simpa [ptsOf] using b)
  · unfold Rounded.linearCall Rounded.div
    rw [ptsOf_ys_length, if_neg (by omega), if_neg (by omega), ptsOf_xs_length, e]
    simp only [Py.pure_eq, Py.ok_bind, ptsOf_ys_get hi1, ptsOf_ys_get hi, ptsOf_xs_get hi1,
      ptsOf_xs_get hi]
    have hd : rnd (l[i - 1].1 - l[i].1) ≠ 0 := by
      obtain ⟨δ, h, e⟩ := R.factor (by omega) (l[i - 1].1 - l[i].1)
      rw [e]
      exact mul_ne_zero (by linarith [sub_neg.2 hlt]) (one_add_pos (ulp_le hp) h).ne'
    rw [pyDiv_ok hd, Py.map_ok, Py.ok_bind]

theorem roundedLinear (R : Rounding p rnd) (hp : 4 ≤ p) {pts : List (ℝ × ℝ)} (hn : (pts.map Prod.fst).Nodup) {a b : ℝ × ℝ}
    (hab : Spec.Neighbours pts a b) {x : ℝ} (hx : a.1 < x) (hx' : x ≤ b.1) :
    Rounded.linearCall rnd (Pts.new (pts.map Prod.fst) (pts.map Prod.snd)) x =
      .ok (rnd (a.2 + rnd (rnd (rnd (b.2 - a.2) * rnd (a.1 - x)) / rnd (a.1 - b.1)))) := by
  rw [Pts_new_eq]
  obtain ⟨ha, hb, hlt, hno⟩ := hab
  have hs := sortPairs_strict hn
  have ha' := (sortPairs_perm pts).mem_iff.2 ha
  have hb' := (sortPairs_perm pts).mem_iff.2 hb
  obtain ⟨m, hm, em⟩ := List.mem_iff_getElem.1 ha'
  obtain ⟨n, hn', en⟩ := List.mem_iff_getElem.1 hb'
  have hmn : m < n := by
    by_contra hcon
    rcases Nat.eq_or_lt_of_le (not_lt.1 hcon) with h | h
    · subst h; rw [← em, ← en] at hlt; exact lt_irrefl _ hlt
    · have := hs.lt hm h; rw [em, en] at this; linarith
  have hn1 : n = m + 1 := by
    by_contra hcon
    have h1 : m + 1 < n := by omega
    have hm1 : m + 1 < (sortPairs pts).length := by omega
    have a1 := hs.lt hm1 (Nat.lt_succ_self m)
    have a2 := hs.lt hn' h1
    rw [em] at a1; rw [en] at a2
    rcases hno _ ((sortPairs_perm pts).mem_iff.1 (List.getElem_mem hm1)) with h | h <;> linarith
  obtain ⟨i, hi, h1, h3, h4, e⟩ := roundedLinear_index R hp hs (by omega) x
  have : i = n := by
    rcases lt_trichotomy i n with h | h | h
    · have := h4 m hm (by omega) (by omega); rw [em] at this; linarith
    · exact h
    · have := h3 n hn' (by omega) h; rw [en] at this; linarith
  subst this
  have hi1 : i - 1 = m := by omega
  rw [e]
  simp only [hi1, em, en]

/-- C167: without rounding the function is that of the model. -/
theorem C167_unrounded (p : Pts ℝ) (x : ℝ) : Rounded.linearCall id p x = linearCall p x := by
  unfold Rounded.linearCall linearCall Rounded.div
  simp only [id_map, id]

theorem interp_bound {y Y lam T δ u : ℝ} (hu : u ≤ 1 / 16) (l0 : 0 ≤ lam) (l1 : lam ≤ 1) (kT : |T - 1| ≤ 6 * u) (h6 : |δ| ≤ u) :
    |(y + (Y - y) * lam * T) * (1 + δ) - (y + (Y - y) * lam)| ≤ 14 * u * max |y| |Y| := by
  have hu0 : 0 ≤ u := (abs_nonneg _).trans h6
  obtain ⟨M, hM⟩ : ∃ M, M = max |y| |Y| := ⟨_, rfl⟩
  obtain ⟨D, hD⟩ : ∃ D, D = Y - y := ⟨_, rfl⟩
  have m1 : |y| ≤ M := hM ▸ le_max_left _ _
  have m2 : |Y| ≤ M := hM ▸ le_max_right _ _
  have hM0 : 0 ≤ M := (abs_nonneg _).trans m1
  have dM : |D| ≤ 2 * M := by have := abs_sub Y y; rw [hD]; linarith
  have c1 : |D * lam * (T - 1)| ≤ 2 * M * 1 * (6 * u) := by
    rw [abs_mul, abs_mul, abs_of_nonneg l0]
    exact mul_le_mul (mul_le_mul dM l1 l0 (by linarith)) kT (abs_nonneg _) (by linarith)
  have c0 : |y + D * lam| ≤ M := by
    have : y + D * lam = (1 - lam) * y + lam * Y := by rw [hD]; ring
    rw [this]
    refine (abs_add_le _ _).trans ?_
    rw [abs_mul, abs_mul, abs_of_nonneg l0, abs_of_nonneg (by linarith : 0 ≤ 1 - lam)]
    have a1 := mul_le_mul_of_nonneg_left m1 (by linarith : 0 ≤ 1 - lam)
    have a2 := mul_le_mul_of_nonneg_left m2 l0
    linarith
  have eq2 : (y + D * lam * T) * (1 + δ) - (y + D * lam) = D * lam * (T - 1) + D * lam * (T - 1) * δ + (y + D * lam) * δ := by ring
  have hMu : 0 ≤ M * u := mul_nonneg hM0 hu0
  have c2 : |D * lam * (T - 1) * δ| ≤ 2 * M * 1 * (6 * u) * (1 / 16) := by
    rw [abs_mul]; exact mul_le_mul c1 (h6.trans hu) (abs_nonneg _) (by linarith)
  have c3 : |(y + D * lam) * δ| ≤ M * u := by
    rw [abs_mul]; exact mul_le_mul c0 h6 (abs_nonneg _) hM0
  have t1 := abs_add_le (D * lam * (T - 1) + D * lam * (T - 1) * δ) ((y + D * lam) * δ)
  have t2 := abs_add_le (D * lam * (T - 1)) (D * lam * (T - 1) * δ)
  rw [← hD, ← hM, eq2]
  linarith

theorem linear_core (R : Rounding p rnd) (hp : 4 ≤ p) {x₀ y₀ x₁ y₁ x : ℝ} (hlt : x₀ < x₁) (hx : x₀ ≤ x) (hx' : x ≤ x₁) :
    |rnd (y₀ + rnd (rnd (rnd (y₁ - y₀) * rnd (x₀ - x)) / rnd (x₀ - x₁))) - (y₀ + (y₁ - y₀) * ((x - x₀) / (x₁ - x₀)))| ≤
      14 * (2 : ℝ) ^ (-(p : ℤ)) * max |y₀| |y₁| := by
  have hu := ulp_le hp
  obtain ⟨δ₁, h1, e1⟩ := R.factor (by omega) (y₁ - y₀)
  obtain ⟨δ₂, h2, e2⟩ := R.factor (by omega) (x₀ - x)
  obtain ⟨δ₃, h3, e3⟩ := R.factor (by omega) (x₀ - x₁)
  obtain ⟨δ₄, h4, e4⟩ := R.factor (by omega) (rnd (y₁ - y₀) * rnd (x₀ - x))
  obtain ⟨δ₅, h5, e5⟩ := R.factor (by omega) (rnd (rnd (y₁ - y₀) * rnd (x₀ - x)) / rnd (x₀ - x₁))
  obtain ⟨δ₆, h6, e6⟩ := R.factor (by omega) (y₀ + rnd (rnd (rnd (y₁ - y₀) * rnd (x₀ - x)) / rnd (x₀ - x₁)))
  generalize (2 : ℝ) ^ (-(p : ℤ)) = u at *
  have hu0 : 0 ≤ u := (abs_nonneg _).trans h6
  have p3 := one_add_pos hu h3
  have hba : 0 < x₁ - x₀ := by linarith
  have hba' : x₀ - x₁ ≠ 0 := by linarith
  have eq1 : rnd (rnd (rnd (y₁ - y₀) * rnd (x₀ - x)) / rnd (x₀ - x₁)) =
      (y₁ - y₀) * ((x - x₀) / (x₁ - x₀)) * ((1 + δ₁) * (1 + δ₂) * (1 + δ₄) * (1 + δ₅) / (1 + δ₃)) := by
    rw [e5, e4, e1, e2, e3, ← neg_sub x₀ x, ← neg_sub x₀ x₁, neg_div_neg_eq]
    field_simp
  have k1 : |(1 + δ₁) - 1| ≤ 1 * u := by simpa using h1
  have k2 := factor_mul hu (by norm_num) k1 h2
  have k3 := factor_mul hu (by norm_num) k2 h4
  have k4 := factor_mul hu (by norm_num) k3 h5
  have kT := (factor_div hu k4 h3).trans (mul_le_mul_of_nonneg_right (by norm_num) hu0 : _ ≤ 6 * u)
  rw [e6, eq1]
  exact interp_bound hu (div_nonneg (by linarith) hba.le) ((div_le_one hba).2 (by linarith)) kT h6

/-- C167 (error): between two neighbouring points the value is off the straight line by at most 14 units of rounding, relative to
the larger of the two values. -/
theorem C167_error (R : Rounding p rnd) (hp : 4 ≤ p) {pts : List (ℝ × ℝ)} (hn : (pts.map Prod.fst).Nodup) {a b : ℝ × ℝ}
    (hab : Spec.Neighbours pts a b) {x : ℝ} (hx : a.1 < x) (hx' : x ≤ b.1) :
    ∃ v, Rounded.linearCall rnd (Pts.new (pts.map Prod.fst) (pts.map Prod.snd)) x = .ok v ∧
      |v - (a.2 + (b.2 - a.2) * ((x - a.1) / (b.1 - a.1)))| ≤ 14 * (2 : ℝ) ^ (-(p : ℤ)) * max |a.2| |b.2| := by
  refine ⟨_, roundedLinear R hp hn hab hx hx', linear_core R hp hab.2.2.1 hx.le hx'⟩

/-- C167 (order): between two neighbouring points with increasing values the interpolation is increasing, without any tolerance. -/
theorem C167_order (R : Rounding p rnd) (hp : 4 ≤ p) {pts : List (ℝ × ℝ)} (hn : (pts.map Prod.fst).Nodup) {a b : ℝ × ℝ}
    (hab : Spec.Neighbours pts a b) (hy : a.2 ≤ b.2) {x x' : ℝ} (hx : a.1 < x) (hxx : x ≤ x') (hx' : x' ≤ b.1) :
    ∃ v v', Rounded.linearCall rnd (Pts.new (pts.map Prod.fst) (pts.map Prod.snd)) x = .ok v ∧
      Rounded.linearCall rnd (Pts.new (pts.map Prod.fst) (pts.map Prod.snd)) x' = .ok v' ∧ v ≤ v' ∧ (IsFloat p a.2 → a.2 ≤ v) := by
  refine ⟨_, _, roundedLinear R hp hn hab hx (hxx.trans hx'), roundedLinear R hp hn hab (hx.trans_le hxx) hx', ?_, ?_⟩
  · have h1 := R.nonneg (sub_nonneg.2 hy)
    have h2 : rnd (a.1 - b.1) ≤ 0 := R.nonpos (by linarith [hab.2.2.1])
    refine R.mono (add_le_add_right (R.mono ?_) _)
    exact div_le_div_of_nonpos_of_le h2 (R.mono (mul_le_mul_of_nonneg_left (R.mono (by linarith)) h1))
  · intro hf
    have h1 := R.nonneg (sub_nonneg.2 hy)
    have h2 : rnd (a.1 - b.1) ≤ 0 := R.nonpos (by linarith [hab.2.2.1])
    have h3 : rnd (a.1 - x) ≤ 0 := R.nonpos (by linarith)
    refine R.ge_of_ge ?_ hf
    have := R.nonneg (div_nonneg_of_nonpos (R.nonpos (mul_nonpos_of_nonneg_of_nonpos h1 h3)) h2)
    linarith

/-- C167 (flat): between points of equal value, and at the first point, the value is returned exactly. -/
theorem C167_exact (R : Rounding p rnd) (hp : 4 ≤ p) {pts : List (ℝ × ℝ)} (hn : (pts.map Prod.fst).Nodup) (hf : ∀ a ∈ pts, IsFloat p a.2) :
    (∀ a b x, Spec.Neighbours pts a b → a.2 = b.2 → a.1 < x → x ≤ b.1 →
      Rounded.linearCall rnd (Pts.new (pts.map Prod.fst) (pts.map Prod.snd)) x = .ok a.2) ∧
    ∀ a ∈ pts, (∀ b ∈ pts, a.1 ≤ b.1) → Rounded.linearCall rnd (Pts.new (pts.map Prod.fst) (pts.map Prod.snd)) a.1 = .ok a.2 := by
  constructor
  · intro a b x hab he hx hx'
    rw [roundedLinear R hp hn hab hx hx', ← he, sub_self, R.zero, zero_mul, R.zero, zero_div, R.zero, add_zero, R.eq_self (hf a hab.1)]
  · intro a ha hmin
    rw [Pts_new_eq]
    have hs := sortPairs_strict hn
    have ha' := (sortPairs_perm pts).mem_iff.2 ha
    have hpos : 0 < (sortPairs pts).length := List.length_pos_of_mem ha'
    have h0 : (sortPairs pts)[0] = a := by
      obtain ⟨m, hm, em⟩ := List.mem_iff_getElem.1 ha'
      rcases Nat.eq_zero_or_pos m with h | h
      · subst h; exact em
      · have h1 := hs.lt hm h
        have h2 := hmin _ ((sortPairs_perm pts).mem_iff.1 (List.getElem_mem hpos))
        rw [em] at h1; linarith
    by_cases h2 : 2 ≤ (sortPairs pts).length
    · obtain ⟨i, hi, h1, h3, h4, e⟩ := roundedLinear_index R hp hs h2 a.1
      have hi1 : i = 1 := by
        by_contra hcon
        have := h3 1 (by omega) le_rfl (by omega)
        have h5 := hs.lt (i := 0) (j := 1) (by omega) (by omega)
        rw [h0] at h5; linarith
      subst hi1
      rw [e]
      simp only [Nat.sub_self, h0, sub_self, R.zero, mul_zero, zero_div, add_zero, R.eq_self (hf a ha)]
    · have hl : (sortPairs pts).length = 1 := by omega
      unfold Rounded.linearCall
      rw [ptsOf_ys_length, if_neg (by omega), if_pos hl]
      simp only [Py.pure_eq, Py.ok_bind]
      rw [ptsOf_ys_get hpos, h0]

/-- C167 (violation): with python floats a point other than the first need not be returned: the interpolation through `(0, 2 ^ 55)` and `(1, 1)`
is zero at one, whatever the rule for ties. -/
theorem C167_node_violated (R : Rounding 53 rnd) :
    IsFloat 53 0 ∧ IsFloat 53 ((2 : ℝ) ^ 55) ∧ IsFloat 53 1 ∧
    Rounded.linearCall rnd (Pts.new [0, 1] [2 ^ 55, 1]) 1 = .ok 0 := by
  have f55 : IsFloat 53 ((2 : ℝ) ^ 55) := by simpa using IsFloat.two_zpow (p := 53) (by norm_num) 55
  have f1 : IsFloat 53 (1 : ℝ) := IsFloat.one (by norm_num)
  refine ⟨IsFloat.zero, f55, f1, ?_⟩
  have h := roundedLinear R (by norm_num) (pts := [(0, 2 ^ 55), (1, 1)]) (by simp) (a := (0, 2 ^ 55)) (b := (1, 1))
    ⟨by simp, by simp, by norm_num, by simp⟩ (x := 1) (by norm_num) (by norm_num)
  have key : rnd (1 - 2 ^ 55) = -2 ^ 55 := by
    have b1 := R.nearest (1 - 2 ^ 55) (-2 ^ 55) f55.neg
    rw [show (-2 ^ 55 : ℝ) - (1 - 2 ^ 55) = -1 by ring, abs_neg, abs_one, abs_le] at b1
    obtain ⟨k, hk⟩ := (R.float (1 - 2 ^ 55)).multiple (e := 54) (by
      rw [abs_of_neg (by linarith)]
      have : ((2 : ℝ) ^ (54 : ℤ)) = 2 ^ 54 := by norm_cast
      rw [this]; linarith)
    have e4 : ((2 : ℝ) ^ ((54 : ℤ) - (53 : ℕ) + 1)) = 4 := by norm_num
    rw [e4] at hk
    have k1 : (-2 ^ 53 : ℤ) ≤ k := by
      have h1 : (-(2 : ℝ) ^ 53) - 1 < k := by rw [hk] at b1; linarith
      have h2 : (-(2 : ℤ) ^ 53) - 1 < k := by exact_mod_cast h1
      omega
    have k2 : k ≤ -2 ^ 53 := by
      have h1 : (k : ℝ) < -(2 : ℝ) ^ 53 + 1 := by rw [hk] at b1; linarith
      have h2 : k < -(2 : ℤ) ^ 53 + 1 := by exact_mod_cast h1
      omega
    have : k = -2 ^ 53 := le_antisymm k2 k1
    rw [hk, this]; norm_num
  have r1 : rnd (0 - 1) = -1 := by rw [zero_sub]; exact R.eq_self f1.neg
  simp only [List.map_cons, List.map_nil] at h
  rw [h, key, r1, show (-2 ^ 55 : ℝ) * -1 = 2 ^ 55 by ring, R.eq_self f55, show (2 ^ 55 : ℝ) / -1 = -2 ^ 55 by ring, R.eq_self f55.neg,
    add_neg_cancel, R.zero]

/-! ### C168: sums of money -/

theorem fold_err_of (R : Rounding p rnd) (hp : 4 ≤ p) {v : ℝ} (hv : 0 ≤ v) : ∀ (l : List (ℝ × ℝ)) (s S A : ℝ) (k : ℕ),
    (∀ w ∈ l, |w.1 - w.2| ≤ v * |w.2|) → |S| ≤ A → |s - S| ≤ ((1 + v) * (1 + (2 : ℝ) ^ (-(p : ℤ))) ^ k - 1) * A →
    |(l.map Prod.fst).foldl (fun s v => rnd (s + v)) s - (S + (l.map Prod.snd).sum)| ≤
      ((1 + v) * (1 + (2 : ℝ) ^ (-(p : ℤ))) ^ (k + l.length) - 1) * (A + (l.map fun w => |w.2|).sum)
  | [], s, S, A, k, _, _, h => by simpa using h
  | w :: l, s, S, A, k, hw, hA, h => by
    have hu0 : 0 ≤ (2 : ℝ) ^ (-(p : ℤ)) := ulp_nonneg
    obtain ⟨δ, hδ, e⟩ := R.factor (by omega) (s + w.1)
    have hw1 := hw w (by simp)
    have hA0 : 0 ≤ A := (abs_nonneg _).trans hA
    have step : |rnd (s + w.1) - (S + w.2)| ≤ ((1 + v) * (1 + (2 : ℝ) ^ (-(p : ℤ))) ^ (k + 1) - 1) * (A + |w.2|) := by
      generalize (2 : ℝ) ^ (-(p : ℤ)) = u at *
      have e2 : rnd (s + w.1) - (S + w.2) = ((s - S) + (w.1 - w.2)) * (1 + δ) + δ * (S + w.2) := by rw [e]; ring
      have a1 : |1 + δ| ≤ 1 + u := by
        have := abs_add_le 1 δ; rw [abs_one] at this; linarith
      have a2 : |(s - S) + (w.1 - w.2)| ≤ ((1 + v) * (1 + u) ^ k - 1) * A + v * |w.2| := (abs_add_le _ _).trans (add_le_add h hw1)
      have a3 : |S + w.2| ≤ A + |w.2| := (abs_add_le _ _).trans (add_le_add_left hA _)
      have a4 : |((s - S) + (w.1 - w.2)) * (1 + δ)| ≤ (((1 + v) * (1 + u) ^ k - 1) * A + v * |w.2|) * (1 + u) := by
        rw [abs_mul]; exact mul_le_mul a2 a1 (abs_nonneg _) ((abs_nonneg _).trans a2)
      have a5 : |δ * (S + w.2)| ≤ u * (A + |w.2|) := by
        rw [abs_mul]; exact mul_le_mul hδ a3 (abs_nonneg _) hu0
      rw [e2]
      refine (abs_add_le _ _).trans ((add_le_add a4 a5).trans ?_)
      have g2 : (1 + v) * (1 + u) ≤ (1 + v) * (1 + u) ^ (k + 1) := by
        refine mul_le_mul_of_nonneg_left ?_ (by linarith)
        calc (1 + u) = (1 + u) ^ 1 := (pow_one _).symm
          _ ≤ (1 + u) ^ (k + 1) := pow_le_pow_right₀ (by linarith) (by omega)
      have g3 := mul_le_mul_of_nonneg_right g2 (abs_nonneg w.2)
      have e3 : (((1 + v) * (1 + u) ^ k - 1) * A + v * |w.2|) * (1 + u) + u * (A + |w.2|) =
          ((1 + v) * (1 + u) ^ (k + 1) - 1) * A + ((1 + v) * (1 + u) * |w.2| - |w.2|) := by rw [pow_succ]; ring
      rw [e3, mul_add]
      linarith
    have := fold_err_of R hp hv l (rnd (s + w.1)) (S + w.2) (A + |w.2|) (k + 1) (fun v hv => hw v (by simp [hv]))
      ((abs_add_le _ _).trans (add_le_add_left hA _)) step
    simp only [List.map_cons, List.foldl_cons, List.sum_cons, List.length_cons]
    rw [← add_assoc S, ← add_assoc A, show k + (l.length + 1) = k + 1 + l.length by omega]
    exact this

theorem fold_err (R : Rounding p rnd) (hp : 4 ≤ p) (l : List (ℝ × ℝ)) (s S A : ℝ) (k : ℕ)
    (hw : ∀ w ∈ l, |w.1 - w.2| ≤ (2 : ℝ) ^ (-(p : ℤ)) * |w.2|) (hA : |S| ≤ A) (h : |s - S| ≤ ((1 + (2 : ℝ) ^ (-(p : ℤ))) ^ (k + 1) - 1) * A) :
    |(l.map Prod.fst).foldl (fun s v => rnd (s + v)) s - (S + (l.map Prod.snd).sum)| ≤
      ((1 + (2 : ℝ) ^ (-(p : ℤ))) ^ (k + l.length + 1) - 1) * (A + (l.map fun w => |w.2|).sum) := by
  rw [pow_succ'] at h ⊢
  exact fold_err_of R hp ulp_nonneg l s S A k hw hA h

/-- C168: without rounding the functions are those of the model. -/
theorem C168_unrounded (flows : List (ℝ × ℝ)) (plan : List ℝ) (n : ℤ) (amount : ℝ) (sign : Bool) (s e : PyDate ℝ) :
    Rounded.presentValue id flows = (flows.map fun f => f.1 * f.2).sum ∧
    Rounded.amortize id n amount = Plans.amortize n amount ∧
    Rounded.outstanding id plan amount sign = Plans.outstanding plan amount sign ∧ Rounded.dayCount id s e = defaultDayCount s e := by
  refine ⟨?_, ?_, ?_, ?_⟩
  · unfold Rounded.presentValue Rounded.sum
    rw [List.sum_eq_foldl]; rfl
  · unfold Rounded.amortize Plans.amortize Rounded.div
    rw [id_map]
  · unfold Rounded.outstanding Plans.outstanding
    congr 1
    generalize plan.dropLast = l
    induction l generalizing amount with
    | nil => rfl
    | cons a l ih => simp only [Rounded.outstandingLoop, Plans.outstandingLoop, id, ih]
  · cases s <;> cases e <;> simp [Rounded.dayCount, defaultDayCount, Rounded.div, pyDiv]

/-- C168 (error): the present value of `n` flows is off by at most `(1 + u) ^ (n + 1) - 1` times the sum of the absolute discounted amounts. -/
theorem C168_error (R : Rounding p rnd) (hp : 4 ≤ p) (flows : List (ℝ × ℝ)) :
    |Rounded.presentValue rnd flows - (flows.map fun f => f.1 * f.2).sum| ≤
      ((1 + (2 : ℝ) ^ (-(p : ℤ))) ^ (flows.length + 1) - 1) * (flows.map fun f => |f.1 * f.2|).sum := by
  have := fold_err R hp (flows.map fun f => (rnd (f.1 * f.2), f.1 * f.2)) 0 0 0 0 (by
    intro w hw
    obtain ⟨f, -, rfl⟩ := List.mem_map.1 hw
    exact R.err (by omega) _) (by simp) (by simp)
  simp only [List.map_map, Function.comp_def, List.length_map, zero_add] at this
  exact this

/-- C168 (order): more discounted money has at least the present value, without any tolerance; nonnegative flows have a nonnegative one. -/
theorem C168_order (R : Rounding p rnd) {f g : List (ℝ × ℝ)} (h : List.Forall₂ (fun a b => a.1 = b.1 ∧ 0 ≤ a.1 ∧ a.2 ≤ b.2) f g) :
    Rounded.presentValue rnd f ≤ Rounded.presentValue rnd g ∧ ((∀ a ∈ f, 0 ≤ a.2) → 0 ≤ Rounded.presentValue rnd f) := by
  have key : ∀ s s' : ℝ, s ≤ s' → (f.map fun a => rnd (a.1 * a.2)).foldl (fun s v => rnd (s + v)) s ≤
      (g.map fun a => rnd (a.1 * a.2)).foldl (fun s v => rnd (s + v)) s' := by
    induction h with
    | nil => intro s s' hs; simpa using hs
    | cons hab _ ih =>
      intro s s' hs
      simp only [List.map_cons, List.foldl_cons]
      refine ih _ _ (R.mono (add_le_add hs (R.mono ?_)))
      rw [← hab.1]; exact mul_le_mul_of_nonneg_left hab.2.2 hab.2.1
  refine ⟨key 0 0 le_rfl, fun hpos => ?_⟩
  have h0 : ∀ (l : List (ℝ × ℝ)), (∀ a ∈ l, 0 ≤ a.1 ∧ 0 ≤ a.2) → ∀ s, 0 ≤ s →
      0 ≤ (l.map fun a => rnd (a.1 * a.2)).foldl (fun s v => rnd (s + v)) s := by
    intro l
    induction l with
    | nil => intro _ s hs; simpa using hs
    | cons a l ih =>
      intro hl s hs
      have := hl a (by simp)
      exact ih (fun b hb => hl b (by simp [hb])) _ (R.nonneg (add_nonneg hs (R.nonneg (mul_nonneg this.1 this.2))))
  refine h0 f (fun a ha => ⟨?_, hpos a ha⟩) 0 le_rfl
  clear hpos key h0
  induction h with
  | nil => simp at ha
  | cons hab _ ih =>
    rcases List.mem_cons.1 ha with rfl | ha
    · exact hab.2.1
    · exact ih ha

/-- C168 (plans): the payments of an amortizing plan are equal, have the sign of the amount and add up to it within `(1 + u) ^ (n + 1) - 1`. -/
theorem C168_amortize (R : Rounding p rnd) (hp : 4 ≤ p) {n : ℕ} (hn : 1 ≤ n) (amount : ℝ) :
    ∃ x, Rounded.amortize rnd n amount = .ok (List.replicate n x) ∧ (0 ≤ amount → 0 ≤ x) ∧
      |Rounded.sum rnd (List.replicate n x) - amount| ≤ ((1 + (2 : ℝ) ^ (-(p : ℤ))) ^ (n + 1) - 1) * |amount| := by
  have hn0 : (n : ℝ) ≠ 0 := by exact_mod_cast (by omega : n ≠ 0)
  refine ⟨rnd (amount / n), ?_, fun h => R.nonneg (by positivity), ?_⟩
  · unfold Rounded.amortize Rounded.div
    rw [Int.cast_natCast, pyDiv_ok hn0, Py.map_ok, Py.ok_bind, Int.toNat_natCast]
  · have := fold_err R hp (List.replicate n (rnd (amount / n), amount / n)) 0 0 0 0 (by
      intro w hw
      rw [(List.mem_replicate.1 hw).2]
      exact R.err (by omega) _) (by simp) (by simp)
    simp only [List.map_replicate, List.length_replicate, List.sum_replicate, nsmul_eq_mul, zero_add, abs_div, Nat.abs_cast] at this
    rw [mul_div_cancel₀ _ hn0, mul_div_cancel₀ _ hn0] at this
    exact this

/-- C168 (plans): the balance before payment `k` is off by at most `(1 + u) ^ (k + 1) - 1` times the sum of the absolute amounts paid. -/
theorem C168_outstanding (R : Rounding p rnd) (hp : 4 ≤ p) {plan : List ℝ} (hf : ∀ x ∈ plan, IsFloat p x) (amount : ℝ) {k : ℕ} (hk : k < plan.length) :
    ∃ v, (Rounded.outstanding rnd plan amount false)[k]? = some v ∧
      |v - (amount - (plan.take k).sum)| ≤ ((1 + (2 : ℝ) ^ (-(p : ℤ))) ^ (k + 1) - 1) * (|amount| + ((plan.take k).map fun x => |x|).sum) := by
  have key : ∀ (l : List ℝ) (a : ℝ) (k : ℕ), k ≤ l.length → (∀ x ∈ l, IsFloat p x) →
      (a :: Rounded.outstandingLoop rnd (-1) a l)[k]? = some (((l.take k).map fun x => -x).foldl (fun s v => rnd (s + v)) a) := by
    intro l
    induction l with
    | nil => intro a k hk _; simp only [List.length_nil, Nat.le_zero] at hk; subst hk; simp
    | cons x l ih =>
      intro a k hk hl
      match k, hk with
      | 0, _ => simp
      | k + 1, hk =>
        have e : rnd (-x) = -x := R.eq_self (hl x (by simp)).neg
        have := ih (rnd (a + -x)) k (by simpa using hk) fun y hy => hl y (by simp [hy])
        simpa [Rounded.outstandingLoop, e] using this
  have hk' : k ≤ plan.dropLast.length := by simp; omega
  have ht : plan.dropLast.take k = plan.take k := by
    rw [List.dropLast_eq_take, List.take_take, min_eq_left (by omega)]
  refine ⟨_, key plan.dropLast amount k hk' fun x hx => hf x (List.mem_of_mem_dropLast hx), ?_⟩
  rw [ht]
  have := fold_err R hp ((plan.take k).map fun x => (-x, -x)) amount amount |amount| 0 (by
    intro w hw
    obtain ⟨f, -, rfl⟩ := List.mem_map.1 hw
    simp only [sub_self, abs_zero]
    exact mul_nonneg ulp_nonneg (abs_nonneg _)) le_rfl (by
      have : 0 ≤ (2 : ℝ) ^ (-(p : ℤ)) := ulp_nonneg
      simp only [sub_self, abs_zero, zero_add, pow_one]
      exact mul_nonneg (by linarith) (abs_nonneg _))
  simp only [List.map_map, Function.comp_def, List.length_map, zero_add, abs_neg, List.length_take, min_eq_left hk.le] at this
  have hs : ((plan.take k).map fun x => -x).sum = -(plan.take k).sum := by
    generalize plan.take k = l
    induction l with
    | nil => simp
    | cons a l ih => simp only [List.map_cons, List.sum_cons, ih]; ring
  rw [hs, ← sub_eq_add_neg] at this
  exact this

/-- C168 (year fractions): year fractions between calendar dates never decrease with the end date and are zero over no days, without any tolerance; they
add up within the unit of rounding. -/
theorem C168_day_count (R : Rounding p rnd) (hp : 4 ≤ p) {a b c : ℤ} (hab : a ≤ b) (hbc : b ≤ c) :
    ∃ ab bc ac, Rounded.dayCount rnd (.cal a) (.cal b) = .ok ab ∧ Rounded.dayCount rnd (.cal b) (.cal c) = .ok bc ∧
      Rounded.dayCount rnd (.cal a) (.cal c) = .ok ac ∧ Rounded.dayCount rnd (.cal a) (.cal a) = .ok 0 ∧ 0 ≤ ab ∧ ab ≤ ac ∧
      |ac - (ab + bc)| ≤ 2 * (2 : ℝ) ^ (-(p : ℤ)) * ((c - a) / 365.25) := by
  have e : ∀ s t : ℤ, Rounded.dayCount rnd (.cal s) (.cal t) = .ok (rnd (((t - s : ℤ) : ℝ) / (36525 / 100))) := by
    intro s t
    show rnd <$> pyDiv _ _ = _
    rw [pyDiv_ok (by norm_num), Py.map_ok]
  have hab' : (a : ℝ) ≤ b := by exact_mod_cast hab
  have hbc' : (b : ℝ) ≤ c := by exact_mod_cast hbc
  refine ⟨_, _, _, e a b, e b c, e a c, by rw [e, sub_self, Int.cast_zero, zero_div, R.zero], ?_, ?_, ?_⟩
  · exact R.nonneg (div_nonneg (by push_cast; linarith) (by norm_num))
  · exact R.mono (div_le_div_of_nonneg_right (by push_cast; linarith) (by norm_num))
  · have h1 := R.err (by omega) (((b - a : ℤ) : ℝ) / (36525 / 100))
    have h2 := R.err (by omega) (((c - b : ℤ) : ℝ) / (36525 / 100))
    have h3 := R.err (by omega) (((c - a : ℤ) : ℝ) / (36525 / 100))
    push_cast at h1 h2 h3 ⊢
    rw [abs_of_nonneg (a := (b - a : ℝ) / (36525 / 100)) (div_nonneg (by linarith) (by norm_num))] at h1
    rw [abs_of_nonneg (a := (c - b : ℝ) / (36525 / 100)) (div_nonneg (by linarith) (by norm_num))] at h2
    rw [abs_of_nonneg (a := (c - a : ℝ) / (36525 / 100)) (div_nonneg (by linarith) (by norm_num))] at h3
    have e365 : (365.25 : ℝ) = 36525 / 100 := by norm_num
    rw [e365]
    rw [abs_le] at h1 h2 h3 ⊢
    have s1 : (c - a : ℝ) / (36525 / 100) = (b - a) / (36525 / 100) + (c - b) / (36525 / 100) := by ring
    rw [s1] at h3 ⊢
    constructor <;> nlinarith [h1.1, h1.2, h2.1, h2.2, h3.1, h3.2]

end

/-! ### The hypotheses can be met -/

/-- There is a rounding with 53 bits: the theorems above apply to python floats. -/
example : ∃ rnd, Rounding 53 rnd := exists_rounding (by norm_num)

/-- Five percent over two years: a relative error of at most `2 ^ -51`. -/
example : ∃ rnd d, Rounding 53 rnd ∧ Rounded.simpleCompounding rnd 0.05 2 = .ok d ∧ |d - 1 / 1.1| ≤ 4 * (2 : ℝ) ^ (-53 : ℤ) * (1 / 1.1) := by
  obtain ⟨rnd, R⟩ := exists_rounding (p := 53) (by norm_num)
  obtain ⟨d, h, h', -⟩ := C166_simple R (by norm_num) (r := 0.05) (t := 2) (by norm_num)
  refine ⟨rnd, d, R, h, ?_⟩
  have e : (1 : ℝ) + 0.05 * 2 = 1.1 := by norm_num
  rw [e] at h'
  exact h'

/-- A tenth of a basis point over a nanoyear is lost. -/
example : ∃ rnd d, Rounding 53 rnd ∧ Rounded.simpleCompounding rnd (1 / 2 ^ 20) (1 / 2 ^ 40) = .ok d ∧ Rounded.simpleRate rnd d (1 / 2 ^ 40) = .ok 0 := by
  obtain ⟨rnd, R⟩ := exists_rounding (p := 53) (by norm_num)
  obtain ⟨d, h, h', -⟩ := C166_roundtrip_violated R (by norm_num) (r := 1 / 2 ^ 20) (t := 1 / 2 ^ 40) (by norm_num) (by norm_num) (by norm_num)
  exact ⟨rnd, d, R, h, h'⟩

example : ∃ rnd v, Rounding 53 rnd ∧ Rounded.linearCall rnd (Pts.new [3, 1, 2] [30, 10, 20]) 1.5 = .ok v ∧ |v - 15| ≤ 280 * (2 : ℝ) ^ (-53 : ℤ) := by
  obtain ⟨rnd, R⟩ := exists_rounding (p := 53) (by norm_num)
  obtain ⟨v, h, h'⟩ := C167_error R (by norm_num) (pts := [(3, 30), (1, 10), (2, 20)]) (by norm_num) (a := (1, 10)) (b := (2, 20))
    ⟨by simp, by simp, by norm_num, by simp; norm_num⟩ (x := 1.5) (by norm_num) (by norm_num)
  refine ⟨rnd, v, R, h, ?_⟩
  norm_num at h' ⊢
  linarith

example : ∃ rnd, Rounding 53 rnd ∧ |Rounded.presentValue rnd [(0.9, 100), (0.8, 100)] - 170| ≤ ((1 + (2 : ℝ) ^ (-53 : ℤ)) ^ 3 - 1) * 170 := by
  obtain ⟨rnd, R⟩ := exists_rounding (p := 53) (by norm_num)
  have h := C168_error R (by norm_num) [(0.9, 100), (0.8, 100)]
  simp only [List.map_cons, List.map_nil, List.sum_cons, List.sum_nil, List.length_cons, List.length_nil] at h
  rw [abs_of_nonneg (a := (0.9 * 100 : ℝ)) (by norm_num), abs_of_nonneg (a := (0.8 * 100 : ℝ)) (by norm_num),
    show (0.9 * 100 + (0.8 * 100 + 0) : ℝ) = 170 by norm_num] at h
  exact ⟨rnd, R, h⟩

end Dcf
