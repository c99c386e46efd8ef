import Verif.Model.RoundedMarket
import Verif.Model.VolCurve
import Verif.Props.RoundedOptions

/-! # C176: volatilities and forward rates in floating point arithmetic -/

set_option linter.unusedSectionVars false
set_option linter.unusedSimpArgs false
set_option linter.unusedVariables false

namespace Dcf

open Spec

variable {p : ℕ} {rnd : ℝ → ℝ}

/-! ### Squares and roots -/

theorem Rounding.err_exponent (R : Rounding p rnd) (hp : 1 ≤ p) {x : ℝ} {e : ℤ} (h1 : (2 : ℝ) ^ e ≤ |x|) (h2 : |x| < (2 : ℝ) ^ (e + 1)) :
    |rnd x - x| ≤ (2 : ℝ) ^ (e - p) := by
  obtain ⟨m, hm, _, h⟩ := exists_near hp h1 h2
  exact (R.nearest x _ (IsFloat.of_le hp hm)).trans h

theorem rnd_sqrt_sq_pos (R : Rounding p rnd) (hp : 1 ≤ p) {f : ℝ} (hf : IsFloat p f) (h0 : 0 < f) : rnd (Real.sqrt (rnd (f ^ 2))) = f := by
  obtain ⟨e, h1, h2⟩ := exists_exponent h0.ne'
  rw [abs_of_pos h0] at h1 h2
  have hE : 0 < (2 : ℝ) ^ e := by positivity
  have hE1 : (2 : ℝ) ^ (e + 1) = 2 * 2 ^ e := by rw [zpow_add₀ (by norm_num)]; ring
  have hE2 : (2 : ℝ) ^ (2 * e) = 2 ^ e * 2 ^ e := by rw [← zpow_add₀ (by norm_num)]; congr 1; ring
  have hE3 : (2 : ℝ) ^ (2 * e + 1) = 2 * (2 ^ e * 2 ^ e) := by rw [zpow_add₀ (by norm_num), hE2]; ring
  have hE4 : (2 : ℝ) ^ (2 * e + 1 + 1) = 4 * (2 ^ e * 2 ^ e) := by rw [zpow_add₀ (by norm_num), hE3]; ring
  have hu : 0 < (2 : ℝ) ^ (-(p : ℤ)) := by positivity
  have ha : |f ^ 2| = f * f := by rw [abs_of_pos (by positivity), sq]
  have hx : (2 : ℝ) ^ e * 2 ^ e ≤ rnd (f ^ 2) := R.ge_of_ge (by rw [sq]; exact mul_le_mul h1 h1 hE.le h0.le) (by rw [← hE2]; exact IsFloat.two_zpow hp _)
  have hs : (2 : ℝ) ^ e ≤ Real.sqrt (rnd (f ^ 2)) := Real.le_sqrt_of_sq_le (by rw [sq]; exact hx)
  have hs2 : Real.sqrt (rnd (f ^ 2)) * Real.sqrt (rnd (f ^ 2)) = rnd (f ^ 2) := Real.mul_self_sqrt ((mul_pos hE hE).le.trans hx)
  refine rnd_near R hf hs h1 hp ?_
  have hg : (2 : ℝ) ^ (e - p + 1) = 2 * (2 ^ e * 2 ^ (-(p : ℤ))) := by
    rw [zpow_add₀ (by norm_num), sub_eq_add_neg, zpow_add₀ (by norm_num)]; ring
  rw [hg]
  set s := Real.sqrt (rnd (f ^ 2)) with hsd
  have hd : |f - s| * (f + s) = |rnd (f ^ 2) - f ^ 2| := by
    rw [abs_sub_comm f s, ← abs_of_pos (by linarith : 0 < f + s), ← abs_mul, ← hs2]
    congr 1
    ring
  have hsum : 2 * 2 ^ e ≤ f + s := by linarith
  by_cases hc : f * f < 2 * ((2 : ℝ) ^ e * 2 ^ e)
  · have herr := R.err_exponent hp (x := f ^ 2) (e := 2 * e) (by rw [ha, hE2]; exact mul_le_mul h1 h1 hE.le h0.le) (by rw [ha, hE3]; exact hc)
    rw [← hd, sub_eq_add_neg (2 * e), zpow_add₀ (by norm_num), hE2] at herr
    have : |f - s| * (2 * 2 ^ e) ≤ (2 ^ e * 2 ^ e) * 2 ^ (-(p : ℤ)) := (mul_le_mul_of_nonneg_left hsum (abs_nonneg _)).trans herr
    have h3 : |f - s| * 2 ≤ 2 ^ e * 2 ^ (-(p : ℤ)) := by
      by_contra hh
      have := mul_lt_mul_of_pos_right (not_le.1 hh) hE
      nlinarith
    have : 0 < (2 : ℝ) ^ e * 2 ^ (-(p : ℤ)) := mul_pos hE hu
    linarith
  · rw [not_lt] at hc
    have herr := R.err_exponent hp (x := f ^ 2) (e := 2 * e + 1) (by rw [ha, hE3]; exact hc) (by
      rw [ha, hE4]; rw [hE1] at h2; nlinarith)
    rw [← hd, sub_eq_add_neg (2 * e + 1), zpow_add₀ (by norm_num) (2 * e + 1), hE3] at herr
    have hf1 : (2 : ℝ) ^ e < f := by
      by_contra hh
      have := mul_le_mul (not_lt.1 hh) (not_lt.1 hh) h0.le hE.le
      nlinarith [mul_pos hE hE]
    have hsum' : 2 * 2 ^ e < f + s := by linarith
    rcases (abs_nonneg (f - s)).eq_or_lt with h5 | h5
    · rw [← h5]; nlinarith [mul_pos hE hu]
    have : |f - s| * (2 * 2 ^ e) < 2 * (2 ^ e * 2 ^ e) * 2 ^ (-(p : ℤ)) := (mul_lt_mul_of_pos_left hsum' h5).trans_le herr
    by_contra hh
    have := mul_le_mul_of_nonneg_right (not_lt.1 hh) hE.le
    nlinarith

/-- The root of the square of a float is its absolute value, whatever the rounding to nearest. -/
theorem rnd_sqrt_sq (R : Rounding p rnd) (hp : 1 ≤ p) {f : ℝ} (hf : IsFloat p f) : rnd (Real.sqrt (rnd (f ^ 2))) = |f| := by
  rcases lt_trichotomy f 0 with h | rfl | h
  · rw [abs_of_neg h, ← neg_sq]; exact rnd_sqrt_sq_pos R hp hf.neg (by linarith)
  · simp [R.zero]
  · rw [abs_of_pos h]; exact rnd_sqrt_sq_pos R hp hf h

/-! ### Agreement -/

/-- C176: without rounding these are the functions of the model. -/
theorem C176_unrounded {D P : Type} [LinearOrder D] (cal : Cal D P) {o start stop : D} {t1 v1 t2 v2 t : ℝ} :
    (∀ c : VolCurve D P, c.base.origin = some o → c.dayCount cal o start = .ok t1 → c.call cal start = .ok v1 → c.dayCount cal o stop = .ok t2 →
      c.call cal stop = .ok v2 → c.dayCount cal start stop = .ok t → c.forwardVol cal start stop = Rounded.forwardVol id c.floor t1 v1 t2 v2 t) ∧
    (∀ c : IRCurve D P, c.base.origin = some o → c.dayCount cal o start = .ok t1 → c.call cal start = .ok v1 → c.dayCount cal o stop = .ok t2 →
      c.call cal stop = .ok v2 → c.dayCount cal start stop = .ok t → c.zeroForward cal start stop = Rounded.forwardRate id v1 t1 v2 t2 t) ∧
    (∀ c : CRCurve D P, start ≠ stop → c.base.origin = some o → c.dayCount cal o start = .ok t1 → c.call cal start = .ok v1 → c.dayCount cal o stop = .ok t2 →
      c.call cal stop = .ok v2 → c.dayCount cal start stop = .ok t → c.flatRateOf cal false start stop = Rounded.forwardRate id v1 t1 v2 t2 t) := by
  refine ⟨fun c ho h1 h2 h3 h4 h5 => ?_, fun c ho h1 h2 h3 h4 h5 => ?_, fun c hs ho h1 h2 h3 h4 h5 => ?_⟩
  · simp only [VolCurve.forwardVol, ho, pyDate, h1, h2, h3, h4, h5, Py.ok_bind, Rounded.forwardVol, Rounded.div, id]
    cases pyDiv (t2 * v2 ^ 2 - t1 * v1 ^ 2) t with
    | error e => rfl
    | ok var =>
      simp only [Py.ok_bind, Py.map_ok]
      by_cases h : var < 0 ∧ c.floor = none
      · simp [h]
      · rw [if_neg h]; exact (if_neg (c := var < 0 ∧ c.floor = none) h).symm
  · simp [IRCurve.zeroForward, ho, pyDate, h1, h2, h3, h4, h5, Rounded.forwardRate, Rounded.div]
  · simp [CRCurve.flatRateOf, hs, ho, pyDate, h1, h2, h3, h4, h5, Rounded.forwardRate, Rounded.div]

/-! ### Forward volatilities -/

/-- C176 (quotes that do not fall): every forward volatility is defined and not negative, without any tolerance. -/
theorem C176_defined (R : Rounding p rnd) {t1 v1 t2 v2 t : ℝ} (ht1 : 0 ≤ t1) (ht : t1 ≤ t2) (hv : |v1| ≤ |v2|) (h0 : 0 < t) (floor : Option ℝ) :
    ∃ w, Rounded.forwardVol rnd floor t1 v1 t2 v2 t = .ok w ∧ 0 ≤ w := by
  have h1 : rnd (v1 ^ 2) ≤ rnd (v2 ^ 2) := R.mono (sq_le_sq.2 hv)
  have h2 : rnd (t1 * rnd (v1 ^ 2)) ≤ rnd (t2 * rnd (v2 ^ 2)) := R.mono (mul_le_mul ht h1 (R.nonneg (sq_nonneg _)) (ht1.trans ht))
  have h3 : 0 ≤ rnd (rnd (rnd (t2 * rnd (v2 ^ 2)) - rnd (t1 * rnd (v1 ^ 2))) / t) := R.nonneg (div_nonneg (R.nonneg (by linarith)) h0.le)
  simp only [Rounded.forwardVol, Rounded.div, pyDiv_ok h0.ne', Py.map_ok, Py.ok_bind]
  rw [if_neg (fun h => not_lt.2 h3 h.1)]
  exact ⟨_, rfl, R.nonneg (Real.sqrt_nonneg _)⟩

/-- C176 (floor): with a floor every forward volatility is defined and at least the floor, without any tolerance. -/
theorem C176_floor (R : Rounding p rnd) (hp : 1 ≤ p) {f : ℝ} (hf : IsFloat p f) (t1 v1 t2 v2 : ℝ) {t : ℝ} (h0 : t ≠ 0) :
    ∃ w, Rounded.forwardVol rnd (some f) t1 v1 t2 v2 t = .ok w ∧ |f| ≤ w ∧
      (t2 * rnd (v2 ^ 2) ≤ t1 * rnd (v1 ^ 2) → 0 < t → w = |f|) := by
  simp only [Rounded.forwardVol, Rounded.div, pyDiv_ok h0, Py.map_ok, Py.ok_bind]
  rw [if_neg (by simp)]
  refine ⟨_, rfl, ?_, fun h h' => ?_⟩
  · rw [← rnd_sqrt_sq R hp hf]
    exact R.mono (Real.sqrt_le_sqrt (le_max_right _ _))
  · rw [← rnd_sqrt_sq R hp hf, max_eq_right]
    exact (R.nonpos (div_nonpos_of_nonpos_of_nonneg (R.nonpos (by linarith [R.mono h])) h'.le)).trans (R.nonneg (sq_nonneg _))

/-- C176 (error): the square of a forward volatility misses the exact forward variance by a few roundings of the variances up to the two dates, divided by the
length of the period. -/
theorem C176_error (R : Rounding p rnd) (hp : 4 ≤ p) {t1 v1 t2 v2 t w : ℝ} (ht1 : 0 ≤ t1) (ht2 : 0 ≤ t2) (h0 : 0 < t)
    (hw : Rounded.forwardVol rnd none t1 v1 t2 v2 t = .ok w) :
    |w ^ 2 - (t2 * v2 ^ 2 - t1 * v1 ^ 2) / t| ≤ 8 * (2 : ℝ) ^ (-(p : ℤ)) * ((t2 * v2 ^ 2 + t1 * v1 ^ 2) / t) := by
  have hu := ulp_le hp
  have hu0 : 0 ≤ (2 : ℝ) ^ (-(p : ℤ)) := ulp_nonneg
  obtain ⟨a1, ha1, e1⟩ := R.factor (by omega) (v1 ^ 2)
  obtain ⟨a2, ha2, e2⟩ := R.factor (by omega) (t1 * rnd (v1 ^ 2))
  obtain ⟨b1, hb1, e3⟩ := R.factor (by omega) (v2 ^ 2)
  obtain ⟨b2, hb2, e4⟩ := R.factor (by omega) (t2 * rnd (v2 ^ 2))
  obtain ⟨c1, hc1, e5⟩ := R.factor (by omega) (rnd (t2 * rnd (v2 ^ 2)) - rnd (t1 * rnd (v1 ^ 2)))
  obtain ⟨c2, hc2, e6⟩ := R.factor (by omega) (rnd (rnd (t2 * rnd (v2 ^ 2)) - rnd (t1 * rnd (v1 ^ 2))) / t)
  simp only [Rounded.forwardVol, Rounded.div, pyDiv_ok h0.ne', Py.map_ok, Py.ok_bind, and_true] at hw
  split_ifs at hw with hneg
  rw [not_lt] at hneg
  have hw' := Except.ok.inj hw
  obtain ⟨d, hd, e7⟩ := R.factor (by omega) (Real.sqrt (rnd (rnd (rnd (t2 * rnd (v2 ^ 2)) - rnd (t1 * rnd (v1 ^ 2))) / t)))
  rw [e7] at hw'
  have hsq := Real.sq_sqrt hneg
  have hA0 : 0 ≤ t2 * v2 ^ 2 := mul_nonneg ht2 (sq_nonneg _)
  have hB0 : 0 ≤ t1 * v1 ^ 2 := mul_nonneg ht1 (sq_nonneg _)
  have hww : w ^ 2 = (t2 * v2 ^ 2 * ((1 + b1) * (1 + b2) * (1 + c1) * (1 + c2) * (1 + d) * (1 + d)) -
      t1 * v1 ^ 2 * ((1 + a1) * (1 + a2) * (1 + c1) * (1 + c2) * (1 + d) * (1 + d))) / t := by
    rw [← hw', mul_pow, hsq, e6, e5, e4, e3, e2, e1]
    ring
  generalize (2 : ℝ) ^ (-(p : ℤ)) = u at *
  have six : ∀ {x y : ℝ}, |x| ≤ u → |y| ≤ u → |(1 + x) * (1 + y) * (1 + c1) * (1 + c2) * (1 + d) * (1 + d) - 1| ≤ 8 * u := by
    intro x y hx hy
    have s1 := factor_mul (a := 1 + x) (k := 1) hu (by norm_num) (by rw [add_sub_cancel_left]; linarith) hy
    have s2 := factor_mul hu (by norm_num) s1 hc1
    have s3 := factor_mul hu (by norm_num) s2 hc2
    have s4 := factor_mul hu (by norm_num) s3 hd
    have s5 := factor_mul hu (by norm_num) s4 hd
    refine s5.trans ?_
    norm_num
    linarith
  have m1 := six hb1 hb2
  have m2 := six ha1 ha2
  rw [hww, ← sub_div, abs_div, abs_of_pos h0, ← mul_div_assoc]
  refine div_le_div_of_nonneg_right ?_ h0.le
  set T := (1 + b1) * (1 + b2) * (1 + c1) * (1 + c2) * (1 + d) * (1 + d)
  set S := (1 + a1) * (1 + a2) * (1 + c1) * (1 + c2) * (1 + d) * (1 + d)
  have e : t2 * v2 ^ 2 * T - t1 * v1 ^ 2 * S - (t2 * v2 ^ 2 - t1 * v1 ^ 2) = t2 * v2 ^ 2 * (T - 1) - t1 * v1 ^ 2 * (S - 1) := by ring
  rw [e]
  calc _ ≤ |t2 * v2 ^ 2 * (T - 1)| + |t1 * v1 ^ 2 * (S - 1)| := abs_sub _ _
    _ = t2 * v2 ^ 2 * |T - 1| + t1 * v1 ^ 2 * |S - 1| := by
      rw [abs_mul (t2 * v2 ^ 2), abs_mul (t1 * v1 ^ 2), abs_of_nonneg hA0, abs_of_nonneg hB0]
    _ ≤ t2 * v2 ^ 2 * (8 * u) + t1 * v1 ^ 2 * (8 * u) := add_le_add (mul_le_mul_of_nonneg_left m1 hA0) (mul_le_mul_of_nonneg_left m2 hB0)
    _ = _ := by ring

/-- C176 (violation): quotes with rising total variance are refused: at times 7/4 and a little later with volatilities of about one. -/
theorem C176_rising_violated (R : Rounding 53 rnd) {t : ℝ} (ht : 0 < t) :
    ∃ t1 v1 t2 v2 : ℝ, (IsFloat 53 t1 ∧ IsFloat 53 v1 ∧ IsFloat 53 t2 ∧ IsFloat 53 v2) ∧ 0 < t1 ∧ t1 < t2 ∧ 0 < v1 ∧ 0 < v2 ∧
      t1 * v1 ^ 2 < t2 * v2 ^ 2 ∧ Rounded.forwardVol rnd none t1 v1 t2 v2 t = .error .zeroDivision := by
  have e1 : rnd ((1 + 3 * 2 ^ (-28 : ℤ)) ^ 2) = 1 + 3 * 2 ^ (-27 : ℤ) + 2 ^ (-52 : ℤ) :=
    rnd_near R (e := 0) ⟨2 ^ 52 + 3 * 2 ^ 25 + 1, -52, by norm_num, by norm_num⟩ (by norm_num) (by norm_num) (by norm_num) (by norm_num [abs_lt])
  have e2 : rnd (7 / 4 * (1 + 3 * 2 ^ (-27 : ℤ) + 2 ^ (-52 : ℤ))) = 7 / 4 + 21 * 2 ^ (-29 : ℤ) + 2 * 2 ^ (-52 : ℤ) :=
    rnd_near R (e := 0) ⟨7 * 2 ^ 50 + 21 * 2 ^ 23 + 2, -52, by norm_num, by norm_num⟩ (by norm_num) (by norm_num) (by norm_num) (by norm_num [abs_lt])
  have f2 : IsFloat 53 (7 / 4 + 21 * 2 ^ (-29 : ℤ) + 2 ^ (-52 : ℤ)) := ⟨7 * 2 ^ 50 + 21 * 2 ^ 23 + 1, -52, by norm_num, by norm_num⟩
  have e3 : rnd (7 / 4 + 21 * 2 ^ (-29 : ℤ) + 2 ^ (-52 : ℤ) - (7 / 4 + 21 * 2 ^ (-29 : ℤ) + 2 * 2 ^ (-52 : ℤ))) = -2 ^ (-52 : ℤ) := by
    rw [R.eq_self ⟨-1, -52, by norm_num, by norm_num⟩]; norm_num
  refine ⟨7 / 4, 1 + 3 * 2 ^ (-28 : ℤ), 7 / 4 + 21 * 2 ^ (-29 : ℤ) + 2 ^ (-52 : ℤ), 1,
    ⟨⟨7, -2, by norm_num, by norm_num⟩, ⟨2 ^ 28 + 3, -28, by norm_num, by norm_num⟩, f2, ⟨1, 0, by norm_num, by norm_num⟩⟩, by norm_num, by norm_num,
    by norm_num, by norm_num, by norm_num, ?_⟩
  simp only [Rounded.forwardVol, Rounded.div, pyDiv_ok ht.ne', Py.map_ok, Py.ok_bind, and_true, one_pow, R.one (by norm_num : 1 ≤ 53), mul_one, e1, e2, R.eq_self f2, e3]
  rw [if_pos]
  obtain ⟨δ, hδ, e⟩ := R.factor (by norm_num) (-2 ^ (-52 : ℤ) / t)
  rw [e]
  exact mul_neg_of_neg_of_pos (div_neg_of_neg_of_pos (by norm_num) ht) (one_add_pos (ulp_le (by norm_num)) hδ)

/-- C176 (violation): the forward volatility of a flat curve is another number, here far from the origin: `sqrt 2` in place of `3 / 2`. -/
theorem C176_flat_violated (R : Rounding 53 rnd) (floor : Option ℝ) (hf : ∀ f, floor = some f → |f| ≤ 1) :
    Rounded.forwardVol rnd floor (2 ^ 52) (3 / 2) (2 ^ 52 + 1) (3 / 2) 1 = .ok (rnd (Real.sqrt 2)) ∧ rnd (Real.sqrt 2) < 3 / 2 ∧
    (floor = none → Rounded.forwardVol id floor (2 ^ 52) (3 / 2) (2 ^ 52 + 1) (3 / 2) 1 = .ok (3 / 2)) := by
  have e1 : rnd ((3 / 2) ^ 2) = 9 / 4 := by rw [R.eq_self ⟨9, -2, by norm_num, by norm_num⟩]; norm_num
  have e2 : rnd (2 ^ 52 * (9 / 4)) = 2 ^ 52 * (9 / 4) := R.eq_self ⟨9, 50, by norm_num, by norm_num⟩
  have e3 : rnd ((2 ^ 52 + 1) * (9 / 4)) = 2 ^ 52 * (9 / 4) + 2 :=
    rnd_near R (e := 53) ⟨9 * 2 ^ 49 + 1, 1, by norm_num, by norm_num⟩ (by norm_num) (by norm_num) (by norm_num) (by norm_num [abs_lt])
  have e4 : rnd (2 ^ 52 * (9 / 4) + 2 - 2 ^ 52 * (9 / 4)) = 2 := by rw [R.eq_self ⟨2, 0, by norm_num, by norm_num⟩]; norm_num
  have e5 : rnd (2 / 1) = 2 := by rw [R.eq_self ⟨2, 0, by norm_num, by norm_num⟩]; norm_num
  refine ⟨?_, ?_, ?_⟩
  · simp only [Rounded.forwardVol, Rounded.div, pyDiv_ok one_ne_zero, Py.map_ok, Py.ok_bind, e1, e2, e3, e4, e5]
    rw [if_neg (by norm_num)]
    cases floor with
    | none => rfl
    | some f =>
      have : rnd (f ^ 2) ≤ 1 := R.le_of_le (by rw [← sq_abs]; exact pow_le_one₀ (abs_nonneg _) (hf f rfl)) (IsFloat.one (by norm_num))
      simp only
      rw [max_eq_left (by linarith)]
  · have : rnd (Real.sqrt 2) ≤ 23 / 16 := R.le_of_le (Real.sqrt_le_iff.2 ⟨by norm_num, by norm_num⟩) ⟨23, -4, by norm_num, by norm_num⟩
    exact this.trans_lt (by norm_num)
  · rintro rfl
    simp only [Rounded.forwardVol, Rounded.div, pyDiv_ok one_ne_zero, Py.map_ok, Py.ok_bind, id]
    rw [if_neg (by norm_num)]
    congr 1
    rw [show ((2 : ℝ) ^ 52 + 1) * (3 / 2) ^ 2 - 2 ^ 52 * (3 / 2) ^ 2 = (3 / 2) ^ 2 by norm_num, div_one]
    exact Real.sqrt_sq (by norm_num)

/-! ### Forward rates -/

/-- C176 (forward rates): forward rates, between zero rates and between flat intensities, have the sign of the exact forward rate, rise with the later and fall
with the earlier rate, and miss the exact forward rate by a few roundings divided by the length of the period. -/
theorem C176_rate (R : Rounding p rnd) (hp : 4 ≤ p) (z1 t1 z2 t2 : ℝ) {t : ℝ} (h0 : 0 < t) :
    ∃ f, Rounded.forwardRate rnd z1 t1 z2 t2 t = .ok f ∧ (z1 * t1 ≤ z2 * t2 → 0 ≤ f) ∧ (z2 * t2 ≤ z1 * t1 → f ≤ 0) ∧
      |f - (z2 * t2 - z1 * t1) / t| ≤ 5 * (2 : ℝ) ^ (-(p : ℤ)) * ((|z2 * t2| + |z1 * t1|) / t) := by
  refine ⟨rnd (rnd (rnd (z2 * t2) - rnd (z1 * t1)) / t), by rw [Rounded.forwardRate, Rounded.div, pyDiv_ok h0.ne', Py.map_ok], fun h => ?_, fun h => ?_, ?_⟩
  · exact R.nonneg (div_nonneg (R.nonneg (by linarith [R.mono h])) h0.le)
  · exact R.nonpos (div_nonpos_of_nonpos_of_nonneg (R.nonpos (by linarith [R.mono h])) h0.le)
  · have hu := ulp_le hp
    have hu0 : 0 ≤ (2 : ℝ) ^ (-(p : ℤ)) := ulp_nonneg
    obtain ⟨a, ha, e1⟩ := R.factor (by omega) (z1 * t1)
    obtain ⟨b, hb, e2⟩ := R.factor (by omega) (z2 * t2)
    obtain ⟨c, hc, e3⟩ := R.factor (by omega) (rnd (z2 * t2) - rnd (z1 * t1))
    obtain ⟨d, hd, e4⟩ := R.factor (by omega) (rnd (rnd (z2 * t2) - rnd (z1 * t1)) / t)
    generalize (2 : ℝ) ^ (-(p : ℤ)) = u at *
    have three : ∀ {x : ℝ}, |x| ≤ u → |(1 + x) * (1 + c) * (1 + d) - 1| ≤ 5 * u := by
      intro x hx
      have s1 := factor_mul (a := 1 + x) (k := 1) hu (by norm_num) (by rw [add_sub_cancel_left]; linarith) hc
      have s2 := factor_mul hu (by norm_num) s1 hd
      refine s2.trans ?_
      norm_num
      linarith
    have e : rnd (rnd (rnd (z2 * t2) - rnd (z1 * t1)) / t) - (z2 * t2 - z1 * t1) / t =
        (z2 * t2 * ((1 + b) * (1 + c) * (1 + d) - 1) - z1 * t1 * ((1 + a) * (1 + c) * (1 + d) - 1)) / t := by
      rw [e4, e3, e2, e1]; ring
    rw [e, abs_div, abs_of_pos h0, ← mul_div_assoc]
    refine div_le_div_of_nonneg_right ?_ h0.le
    calc _ ≤ _ := abs_sub _ _
      _ ≤ |z2 * t2| * (5 * u) + |z1 * t1| * (5 * u) := by
        rw [abs_mul, abs_mul (z1 * t1)]
        exact add_le_add (mul_le_mul_of_nonneg_left (three hb) (abs_nonneg _)) (mul_le_mul_of_nonneg_left (three ha) (abs_nonneg _))
      _ = _ := by ring

/-- C176 (order of forward rates). -/
theorem C176_rate_order (R : Rounding p rnd) {z1 t1 z2 t2 z1' z2' t : ℝ} (h0 : 0 < t) (ht1 : 0 ≤ t1) (ht2 : 0 ≤ t2) (h1 : z1' ≤ z1) (h2 : z2 ≤ z2') :
    ∃ f f', Rounded.forwardRate rnd z1 t1 z2 t2 t = .ok f ∧ Rounded.forwardRate rnd z1' t1 z2' t2 t = .ok f' ∧ f ≤ f' := by
  refine ⟨_, _, by rw [Rounded.forwardRate, Rounded.div, pyDiv_ok h0.ne', Py.map_ok], by rw [Rounded.forwardRate, Rounded.div, pyDiv_ok h0.ne', Py.map_ok], ?_⟩
  have k1 := R.mono (mul_le_mul_of_nonneg_right h1 ht1)
  have k2 := R.mono (mul_le_mul_of_nonneg_right h2 ht2)
  exact R.mono (div_le_div_of_nonneg_right (R.mono (by linarith)) h0.le)

/-- C176 (violation): the forward rate of a flat curve is another number: 1 in place of `1 + 2 ^ -52` between the times 7/4 and 11/4. -/
theorem C176_rate_violated (R : Rounding 53 rnd) :
    Rounded.forwardRate rnd (1 + 2 ^ (-52 : ℤ)) (7 / 4) (1 + 2 ^ (-52 : ℤ)) (11 / 4) 1 = .ok 1 ∧
    Rounded.forwardRate id (1 + 2 ^ (-52 : ℤ)) (7 / 4) (1 + 2 ^ (-52 : ℤ)) (11 / 4) 1 = .ok (1 + 2 ^ (-52 : ℤ)) := by
  have e1 : rnd ((1 + 2 ^ (-52 : ℤ)) * (7 / 4)) = 7 / 4 + 2 * 2 ^ (-52 : ℤ) :=
    rnd_near R (e := 0) ⟨7 * 2 ^ 50 + 2, -52, by norm_num, by norm_num⟩ (by norm_num) (by norm_num) (by norm_num) (by norm_num [abs_lt])
  have e2 : rnd ((1 + 2 ^ (-52 : ℤ)) * (11 / 4)) = 11 / 4 + 2 * 2 ^ (-52 : ℤ) :=
    rnd_near R (e := 1) ⟨11 * 2 ^ 49 + 1, -51, by norm_num, by norm_num⟩ (by norm_num) (by norm_num) (by norm_num) (by norm_num [abs_lt])
  have e3 : rnd (11 / 4 + 2 * 2 ^ (-52 : ℤ) - (7 / 4 + 2 * 2 ^ (-52 : ℤ))) = 1 := by rw [R.eq_self ⟨1, 0, by norm_num, by norm_num⟩]; norm_num
  constructor
  · rw [Rounded.forwardRate, e1, e2, e3, Rounded.div, pyDiv_ok one_ne_zero, Py.map_ok, div_one, R.one (by norm_num)]
  · rw [Rounded.forwardRate, Rounded.div, pyDiv_ok one_ne_zero, Py.map_ok]
    congr 1
    norm_num

/-! ### Examples -/

/-- A volatility of 1/4 up to one year and 1/2 up to two years. -/
example (R : Rounding 53 rnd) := C176_defined R (t1 := 1) (v1 := 1 / 4) (t2 := 2) (v2 := 1 / 2) (t := 1) (by norm_num) (by norm_num)
  (by norm_num [abs_of_pos]) (by norm_num) none

/-- A floor of 1/8 with falling variance: 1 up to one year and 1/2 up to two years. -/
example (R : Rounding 53 rnd) : Rounded.forwardVol rnd (some (1 / 8)) 1 1 2 (1 / 2) 1 = .ok (1 / 8) := by
  obtain ⟨w, hw, _, h⟩ := C176_floor R (by norm_num) (f := 1 / 8) ⟨1, -3, by norm_num, by norm_num⟩ 1 1 2 (1 / 2) (t := 1) one_ne_zero
  rw [hw, h ?_ one_pos]
  · norm_num [abs_of_pos]
  · rw [one_pow, R.one (by norm_num), R.eq_self (x := (1 / 2) ^ 2) ⟨1, -2, by norm_num, by norm_num⟩]; norm_num

example (R : Rounding 53 rnd) : ∃ w, Rounded.forwardVol rnd none 1 (1 / 4) 2 (1 / 2) 1 = .ok w ∧
    |w ^ 2 - 7 / 16| ≤ 8 * (2 : ℝ) ^ (-(53 : ℤ)) * (9 / 16) := by
  obtain ⟨w, hw, _⟩ := C176_defined R (t1 := 1) (v1 := 1 / 4) (t2 := 2) (v2 := 1 / 2) (t := 1) (by norm_num) (by norm_num)
    (by norm_num [abs_of_pos]) (by norm_num) none
  have := C176_error R (by norm_num) (by norm_num) (by norm_num) one_pos hw
  refine ⟨w, hw, ?_⟩
  convert this using 2 <;> norm_num

example (R : Rounding 53 rnd) := C176_rising_violated R (t := 1 / 365) (by norm_num)

example (R : Rounding 53 rnd) := C176_flat_violated R none (by simp)

example (R : Rounding 53 rnd) := C176_rate R (by norm_num) (1 / 10) 1 (1 / 5) 2 (t := 1) one_pos

example (R : Rounding 53 rnd) := C176_rate_order R (z1 := 1 / 10) (t1 := 1) (z2 := 1 / 5) (t2 := 2) (z1' := 0) (z2' := 1) (t := 1) one_pos (by norm_num) (by norm_num)
  (by norm_num) (by norm_num)

example (R : Rounding 53 rnd) := C176_rate_violated R

end Dcf
