import Verif.Props.RoundedVol
import Verif.Props.Applied
import Verif.Props.Applied2
import Verif.Props.Fx

/-! # C177, C178: fx rates and credit data in floating point arithmetic -/

set_option linter.unusedSectionVars false
set_option linter.unusedSimpArgs false
set_option linter.unusedVariables false

namespace Dcf

open Spec

variable {p : ℕ} {rnd : ℝ → ℝ}

/-! ### C177: fx rates -/

/-- C177: without rounding forwards are those of the model. -/
theorem C177_unrounded {D P : Type} [LinearOrder D] (cal : Cal D P) (c : FxCurve D) {last x : D} {y d f : ℝ} (h1 : pyLast c.base.base.domain = .ok last)
    (h2 : last < x) (h3 : c.base.price cal last = .ok (some y)) (h4 : c.domestic last x = .ok d) (h5 : c.foreign last x = .ok f) :
    c.price cal x = some <$> Rounded.fxForward id y f d := by
  simp only [FxCurve.price, h1, Py.ok_bind, if_neg (not_le.2 h2), h3, h4, h5, pyNum, Rounded.fxForward, Rounded.div]
  cases pyDiv y f <;> simp

/-- C177: without rounding cross rates are those of the containers of the model. -/
theorem C177_unrounded_container {C D P : Type} [DecidableEq C] [LinearOrder D] (cal : Cal D P) (hτ : GoodDayCount cal.dayCount) (base : C) (bd : D → D → Py ℝ) (o : D)
    {l : List (C × (D → D → Py ℝ) × ℝ)} (hl : GoodHistory base l) {f g : C} {cf cg : D → D → Py ℝ} {sf sg : ℝ} (hf : (f, cf, sf) ∈ l) (hg : (g, cg, sg) ∈ l)
    (hgf : g ≠ f) :
    ∃ c0 c, FxContainer.new cal base bd o = .ok c0 ∧ c0.addAll cal l = .ok c ∧ c.price cal g f o = some <$> Rounded.cross id sg sf ∧
      c.price cal f g o = some <$> Rounded.crossBack id sg sf := by
  obtain ⟨c0, c, h1, h2, rate, r1, -, r3, r4, r5, r6⟩ := C41_no_arbitrage (cal := cal) hτ base bd o hl
  have hsf : 0 < sf := hl.pos _ hf
  have hsg : 0 < sg := hl.pos _ hg
  have hCf : Currency base l f := .inr (List.mem_map.2 ⟨_, hf, rfl⟩)
  have hCg : Currency base l g := .inr (List.mem_map.2 ⟨_, hg, rfl⟩)
  have e1 : rate g base = 1 / sg := by
    rw [eq_div_iff hsg.ne', ← r3 g cg sg hg]; exact r4 _ _
  have e2 : rate g f = 1 / sg * sf := by rw [← r5 g base f, e1, r3 f cf sf hf]
  have e3 : rate f g = 1 / (1 / sg * sf) := by
    rw [eq_div_iff (mul_pos (one_div_pos.2 hsg) hsf).ne', ← e2]; exact r4 _ _
  refine ⟨c0, c, h1, h2, ?_, ?_⟩
  · rw [r1 g f hCg hCf hgf, e2]
    simp [Rounded.cross, Rounded.div, pyDiv_ok hsg.ne']
  · rw [r1 f g hCf hCg hgf.symm, e3]
    have h0 : 1 / sg * sf ≠ 0 := (mul_pos (one_div_pos.2 hsg) hsf).ne'
    simp only [Rounded.crossBack, Rounded.cross, Rounded.div, pyDiv_ok hsg.ne', Py.map_ok, Py.ok_bind, id, pyDiv_ok h0]

theorem cross_eq (R : Rounding p rnd) {a b : ℝ} (ha : a ≠ 0) : Rounded.cross rnd a b = .ok (rnd (rnd (1 / a) * b)) := by
  rw [Rounded.cross, Rounded.div, pyDiv_ok ha, Py.map_ok, Py.ok_bind]

theorem cross_factor (R : Rounding p rnd) (hp : 4 ≤ p) {a b : ℝ} (ha : 0 < a) (hb : 0 < b) :
    ∃ T, Rounded.cross rnd a b = .ok (b / a * T) ∧ |T - 1| ≤ 3 * (2 : ℝ) ^ (-(p : ℤ)) ∧ 0 < T := by
  have hu := ulp_le hp
  obtain ⟨x, hx, e1⟩ := R.factor (by omega) (1 / a)
  obtain ⟨y, hy, e2⟩ := R.factor (by omega) (rnd (1 / a) * b)
  refine ⟨(1 + x) * (1 + y), ?_, ?_, mul_pos (one_add_pos hu hx) (one_add_pos hu hy)⟩
  · rw [cross_eq R ha.ne', e2, e1]
    congr 1
    ring
  · have := factor_mul (a := 1 + x) (k := 1) hu (by norm_num) (by rw [add_sub_cancel_left]; linarith) hy
    refine this.trans (mul_le_mul_of_nonneg_right (by norm_num) ulp_nonneg)

/-- C177 (cross rates): a cross rate and the rate the other way round are positive, miss the exact quotients by a few roundings, and their product misses one by
one rounding. -/
theorem C177_cross (R : Rounding p rnd) (hp : 4 ≤ p) {a b : ℝ} (ha : 0 < a) (hb : 0 < b) :
    ∃ x y, Rounded.cross rnd a b = .ok x ∧ Rounded.crossBack rnd a b = .ok y ∧ 0 < x ∧ 0 < y ∧ |x - b / a| ≤ 3 * (2 : ℝ) ^ (-(p : ℤ)) * (b / a) ∧
      |y - a / b| ≤ 6 * (2 : ℝ) ^ (-(p : ℤ)) * (a / b) ∧ |x * y - 1| ≤ (2 : ℝ) ^ (-(p : ℤ)) := by
  obtain ⟨T, h1, h2, h3⟩ := cross_factor R hp ha hb
  have hu := ulp_le hp
  have hu0 : 0 ≤ (2 : ℝ) ^ (-(p : ℤ)) := ulp_nonneg
  have hba : 0 < b / a := div_pos hb ha
  have hx : 0 < b / a * T := mul_pos hba h3
  obtain ⟨δ, hδ, e⟩ := R.factor (by omega) (1 / (b / a * T))
  have hδ1 := one_add_pos hu hδ
  refine ⟨_, rnd (1 / (b / a * T)), h1, by rw [Rounded.crossBack, h1, Py.ok_bind, Rounded.div, pyDiv_ok hx.ne', Py.map_ok], hx, ?_, ?_, ?_, ?_⟩
  · rw [e]; exact mul_pos (one_div_pos.2 hx) hδ1
  · rw [show b / a * T - b / a = (T - 1) * (b / a) by ring, abs_mul, abs_of_pos hba]
    exact mul_le_mul_of_nonneg_right h2 hba.le
  · have hT : 13 / 16 ≤ T := by have := (abs_le.1 h2).1; linarith
    have e' : rnd (1 / (b / a * T)) - a / b = ((1 + δ) / T - 1) * (a / b) := by rw [e]; field_simp
    rw [e', abs_mul, abs_of_pos (div_pos ha hb)]
    refine mul_le_mul_of_nonneg_right ?_ (div_pos ha hb).le
    rw [div_sub_one h3.ne', abs_div, abs_of_pos h3, div_le_iff₀ h3]
    have : |1 + δ - T| ≤ 4 * (2 : ℝ) ^ (-(p : ℤ)) := by
      rw [show 1 + δ - T = δ - (T - 1) by ring]
      exact (abs_sub _ _).trans (by linarith)
    nlinarith
  · have e' : b / a * T * rnd (1 / (b / a * T)) - 1 = δ := by rw [e]; field_simp; ring
    rw [e']; exact hδ

/-- C177 (triangles): going from one currency to another by way of a third misses the direct rate by a few roundings. -/
theorem C177_triangle (R : Rounding p rnd) (hp : 4 ≤ p) {a b c : ℝ} (ha : 0 < a) (hb : 0 < b) (hc : 0 < c) :
    ∃ x y z, Rounded.cross rnd a b = .ok x ∧ Rounded.cross rnd b c = .ok y ∧ Rounded.cross rnd a c = .ok z ∧
      |x * y / z - 1| ≤ 12 * (2 : ℝ) ^ (-(p : ℤ)) := by
  obtain ⟨T1, h1, k1, l1⟩ := cross_factor R hp ha hb
  obtain ⟨T2, h2, k2, l2⟩ := cross_factor R hp hb hc
  obtain ⟨T3, h3, k3, l3⟩ := cross_factor R hp ha hc
  refine ⟨_, _, _, h1, h2, h3, ?_⟩
  have hu := ulp_le hp
  have hu0 : 0 ≤ (2 : ℝ) ^ (-(p : ℤ)) := ulp_nonneg
  have e : b / a * T1 * (c / b * T2) / (c / a * T3) = T1 * T2 / T3 := by field_simp
  rw [e, div_sub_one l3.ne', abs_div, abs_of_pos l3, div_le_iff₀ l3]
  generalize (2 : ℝ) ^ (-(p : ℤ)) = u at *
  have hT : 13 / 16 ≤ T3 := by have := (abs_le.1 k3).1; linarith
  have e2 : T1 * T2 - T3 = (T1 - 1) + (T2 - 1) + (T1 - 1) * (T2 - 1) - (T3 - 1) := by ring
  have m : |(T1 - 1) * (T2 - 1)| ≤ 3 * u * (3 / 16) := by
    rw [abs_mul]; exact mul_le_mul k1 (k2.trans (by linarith)) (abs_nonneg _) (by linarith)
  have : |T1 * T2 - T3| ≤ 39 / 4 * u := by
    rw [e2]
    refine (abs_sub _ _).trans ?_
    refine (add_le_add (abs_add_le _ _) le_rfl).trans ?_
    refine (add_le_add (add_le_add (abs_add_le _ _) le_rfl) le_rfl).trans ?_
    linarith
  nlinarith

/-- C177 (order): cross rates rise with the spot of the one and fall with the spot of the other currency. -/
theorem C177_order (R : Rounding p rnd) {a a' b b' : ℝ} (ha' : 0 < a') (ha : a' ≤ a) (hb : 0 ≤ b) (hb' : b ≤ b') :
    ∃ x x', Rounded.cross rnd a b = .ok x ∧ Rounded.cross rnd a' b' = .ok x' ∧ x ≤ x' := by
  refine ⟨_, _, cross_eq R (ha'.trans_le ha).ne', cross_eq R ha'.ne', R.mono ?_⟩
  exact mul_le_mul (R.mono (one_div_le_one_div_of_le ha' ha)) hb' hb (R.nonneg (one_div_pos.2 ha').le)

theorem IsFloat.scale {f : ℝ} (h : IsFloat p f) (k : ℤ) : IsFloat p ((2 : ℝ) ^ k * f) := by
  obtain ⟨m, e, h1, rfl⟩ := h
  exact ⟨m, e + k, h1, by rw [zpow_add₀ (by norm_num)]; ring⟩

/-- C177 (exact rates): if the spot of a currency is a power of two, for example one, its cross rates are exact; the rate of a currency in the base currency is the
spot itself. -/
theorem C177_exact (R : Rounding p rnd) (hp : 1 ≤ p) (k : ℤ) {b : ℝ} (hb : IsFloat p b) : Rounded.cross rnd ((2 : ℝ) ^ k) b = .ok (b / (2 : ℝ) ^ k) := by
  have h : (1 : ℝ) / 2 ^ k = 2 ^ (-k) := by rw [zpow_neg, one_div]
  rw [cross_eq R (by positivity), h, R.eq_self (IsFloat.two_zpow hp _), R.eq_self (hb.scale _), zpow_neg, inv_mul_eq_div]

/-- C177 (forwards): forwards are positive, miss the exact forward by a few roundings and are the spot without discounting. -/
theorem C177_forward (R : Rounding p rnd) (hp : 4 ≤ p) {y f d : ℝ} (hy : 0 < y) (hf : 0 < f) (hd : 0 < d) :
    (∃ x, Rounded.fxForward rnd y f d = .ok x ∧ 0 < x ∧ |x - y / f * d| ≤ 3 * (2 : ℝ) ^ (-(p : ℤ)) * (y / f * d)) ∧
    (IsFloat p y → Rounded.fxForward rnd y 1 1 = .ok y) := by
  have hu := ulp_le hp
  obtain ⟨a, ha, e1⟩ := R.factor (by omega) (y / f)
  obtain ⟨b, hb, e2⟩ := R.factor (by omega) (rnd (y / f) * d)
  have h0 : 0 < y / f * d := mul_pos (div_pos hy hf) hd
  refine ⟨⟨rnd (rnd (y / f) * d), by rw [Rounded.fxForward, Rounded.div, pyDiv_ok hf.ne', Py.map_ok, Py.ok_bind], ?_, ?_⟩, fun h => ?_⟩
  · rw [e2, e1]
    exact mul_pos (mul_pos (mul_pos (div_pos hy hf) (one_add_pos hu ha)) hd) (one_add_pos hu hb)
  · have e : rnd (rnd (y / f) * d) - y / f * d = ((1 + a) * (1 + b) - 1) * (y / f * d) := by rw [e2, e1]; ring
    rw [e, abs_mul, abs_of_pos h0]
    refine mul_le_mul_of_nonneg_right ?_ h0.le
    have := factor_mul (a := 1 + a) (k := 1) hu (by norm_num) (by rw [add_sub_cancel_left]; linarith) hb
    exact this.trans (mul_le_mul_of_nonneg_right (by norm_num) ulp_nonneg)
  · rw [Rounded.fxForward, Rounded.div, pyDiv_ok one_ne_zero, Py.map_ok, Py.ok_bind, div_one, R.eq_self h, mul_one, R.eq_self h]

/-- C177 (violation): a currency with the spot 49 and a currency at par: added in this order, the rate of the one in the other is not 49, added in the other order
it is. -/
theorem C177_violated (R : Rounding 53 rnd) :
    Rounded.crossBack rnd 49 1 = .ok (49 + 2 ^ (-47 : ℤ)) ∧ Rounded.cross rnd 1 49 = .ok 49 ∧ Rounded.crossBack id 49 1 = .ok 49 := by
  have e1 : rnd (1 / 49) = 5882252574524729 * 2 ^ (-58 : ℤ) :=
    rnd_near R (e := -6) ⟨5882252574524729, -58, by norm_num, by norm_num⟩ (by norm_num) (by norm_num) (by norm_num) (by norm_num [abs_lt])
  have e2 : rnd (1 / (5882252574524729 * 2 ^ (-58 : ℤ))) = 49 + 2 ^ (-47 : ℤ) :=
    rnd_near R (e := 5) ⟨49 * 2 ^ 47 + 1, -47, by norm_num, by norm_num⟩ (by norm_num) (by norm_num) (by norm_num) (by norm_num [abs_lt])
  refine ⟨?_, ?_, ?_⟩
  · rw [Rounded.crossBack, cross_eq R (by norm_num), Py.ok_bind, mul_one, R.idem, e1, Rounded.div, pyDiv_ok (by norm_num), Py.map_ok, e2]
  · simpa using C177_exact R (by norm_num) 0 (b := 49) ⟨49, 0, by norm_num, by norm_num⟩
  · simp [Rounded.crossBack, Rounded.cross, Rounded.div, pyDiv]

/-! ### C178: credit data -/

theorem floatMin_float (hp : 1 ≤ p) : IsFloat p floatMin := by
  have : floatMin = (2 : ℝ) ^ (-1022 : ℤ) := by rw [floatMin, zpow_neg, one_div, inv_pow]; norm_cast
  rw [this]; exact IsFloat.two_zpow hp _

theorem floatMin_small : floatMin ≤ (1 / 2) ^ 100 := by
  rw [floatMin]; exact pow_le_pow_of_le_one (by norm_num) (by norm_num) (by norm_num)

/-- The upper bound `1. - float_info.min` is the number one. -/
theorem rnd_one_sub_floatMin (R : Rounding 53 rnd) : rnd (1 - floatMin) = 1 := by
  have h1 := floatMin_small
  have h2 := floatMin_pos
  refine rnd_near R (e := -1) (IsFloat.one (by norm_num)) ?_ (by norm_num) (by norm_num) ?_
  · norm_num at h1 ⊢; linarith
  · rw [sub_sub_cancel, abs_of_pos h2]; norm_num at h1 ⊢; linarith

theorem survivalData_eq (R : Rounding 53 rnd) (d : ℝ) : Rounded.survivalData rnd d = clampProb d := by
  rw [Rounded.survivalData, rnd_one_sub_floatMin R, clampProb]

/-- C178 (survival probabilities): the stored data are those of the model, lie between `float_info.min` and one, rise with the given data, and probabilities from
`float_info.min` to one are stored as given. -/
theorem C178_survival (R : Rounding 53 rnd) (d : ℝ) :
    Rounded.survivalData rnd d = clampProb d ∧ 0 < Rounded.survivalData rnd d ∧ Rounded.survivalData rnd d ≤ 1 ∧
    (∀ d', d ≤ d' → Rounded.survivalData rnd d ≤ Rounded.survivalData rnd d') ∧ (floatMin ≤ d → d ≤ 1 → Rounded.survivalData rnd d = d) := by
  rw [survivalData_eq R]
  refine ⟨rfl, floatMin_pos.trans_le (le_max_left _ _), ?_, fun d' h => ?_, fun h1 h2 => ?_⟩
  · have := floatMin_small
    exact max_le (by norm_num at this; linarith) (min_le_right _ _)
  · rw [survivalData_eq R]; exact max_le_max le_rfl (min_le_min h le_rfl)
  · rw [clampProb, min_eq_left h2, max_eq_right h1]

/-- C178 (default probabilities): the survival probability stored for a default probability is positive, at most one and falls with the default probability; it
misses the exact one by at most `2 ^ -53`; it is exact for default probabilities from one half on and for multiples of `2 ^ -53`, and one for no default. -/
theorem C178_default (R : Rounding 53 rnd) {d : ℝ} (h0 : 0 ≤ d) (h1 : d ≤ 1) :
    0 < Rounded.defaultData rnd d ∧ Rounded.defaultData rnd d ≤ 1 ∧ (∀ d', d ≤ d' → Rounded.defaultData rnd d' ≤ Rounded.defaultData rnd d) ∧
    |Rounded.defaultData rnd d - (1 - d)| ≤ (2 : ℝ) ^ (-53 : ℤ) ∧ Rounded.defaultData rnd 0 = 1 ∧
    (IsFloat 53 d → 1 / 2 ≤ d → d < 1 → Rounded.defaultData rnd d = 1 - d) ∧
    (∀ k : ℤ, d = k * (2 : ℝ) ^ (-53 : ℤ) → d < 1 → Rounded.defaultData rnd d = 1 - d) := by
  have hs := floatMin_small
  have hpos := floatMin_pos
  obtain ⟨-, a1, a2, a3, -⟩ := C178_survival R (rnd (1 - d))
  have key : ∀ {x : ℝ}, IsFloat 53 (1 - x) → (2 : ℝ) ^ (-53 : ℤ) ≤ 1 - x → 0 ≤ x → Rounded.defaultData rnd x = 1 - x := by
    intro x hx h hx0
    rw [Rounded.defaultData, R.eq_self hx]
    exact (C178_survival R _).2.2.2.2 (by norm_num at h hs; linarith) (by linarith)
  have mul : ∀ k : ℤ, d = k * (2 : ℝ) ^ (-53 : ℤ) → d < 1 → Rounded.defaultData rnd d = 1 - d := by
    intro k hk hd
    have e : 1 - d = ((2 ^ 53 - k : ℤ) : ℝ) * (2 : ℝ) ^ (-53 : ℤ) := by rw [hk]; push_cast; norm_num; ring
    have hk0 : 0 ≤ k := by
      have : (0 : ℝ) ≤ k := by
        rw [hk] at h0
        exact nonneg_of_mul_nonneg_left h0 (by positivity)
      exact_mod_cast this
    have hk1 : k < 2 ^ 53 := by
      have : (k : ℝ) < 2 ^ 53 := by
        rw [hk] at hd
        norm_num at hd ⊢
        linarith
      exact_mod_cast this
    refine key ?_ ?_ h0
    · rw [e]; exact IsFloat.of_le (by norm_num) (by rw [abs_of_nonneg (by omega)]; omega)
    · rw [e]
      have : (1 : ℝ) ≤ ((2 ^ 53 - k : ℤ) : ℝ) := by exact_mod_cast (by omega : (1 : ℤ) ≤ 2 ^ 53 - k)
      nlinarith [show (0 : ℝ) < 2 ^ (-53 : ℤ) by positivity]
  refine ⟨a1, a2, fun d' h => (C178_survival R (rnd (1 - d'))).2.2.2.1 _ (R.mono (by linarith)), ?_, ?_, fun hf h2 h3 => ?_, mul⟩
  · have hr := R.err (by norm_num) (1 - d)
    have hr1 : |rnd (1 - d) - (1 - d)| ≤ (2 : ℝ) ^ (-53 : ℤ) := by
      refine hr.trans ?_
      rw [abs_of_nonneg (by linarith)]
      have : (0 : ℝ) < 2 ^ (-53 : ℤ) := by positivity
      push_cast
      nlinarith
    rw [Rounded.defaultData, survivalData_eq R, clampProb]
    have b1 : rnd (1 - d) ≤ 1 := R.le_of_le (by linarith) (IsFloat.one (by norm_num))
    have b0 : 0 ≤ rnd (1 - d) := R.nonneg (by linarith)
    rw [min_eq_left b1]
    rcases le_total floatMin (rnd (1 - d)) with h | h
    · rw [max_eq_right h]; exact hr1
    · rw [max_eq_left h]
      have c : floatMin ≤ (2 : ℝ) ^ (-53 : ℤ) := hs.trans (by norm_num)
      have hz : 1 - d ≤ 2 * floatMin := by
        by_contra hh
        have := (R.float floatMin)
        have h5 : rnd (2 * floatMin) ≤ rnd (1 - d) := R.mono (not_le.1 hh).le
        rw [R.eq_self (IsFloat.double_iff.2 (floatMin_float (by norm_num)))] at h5
        linarith
      rw [abs_le]
      constructor <;> linarith
  · simpa using key (x := 0) (by simpa using IsFloat.one (p := 53) (by norm_num)) (by norm_num) le_rfl
  · obtain ⟨k, hk⟩ := hf.multiple (e := -1) (by rw [abs_of_pos (by linarith)]; norm_num; linarith)
    exact mul k (by rw [hk]; norm_num) h3

/-- C178 (conditional survival): between two dates with falling survival probabilities the conditional survival probability is at most one and not negative, it is
exactly one without a fall, falls with the later and rises with the earlier one falling, and misses the exact one by one rounding; over adjacent periods it
multiplies up to a few roundings. -/
theorem C178_conditional (R : Rounding p rnd) (hp : 4 ≤ p) {s t : ℝ} (ht : 0 < t) (hst : t ≤ s) :
    (∃ q, Rounded.conditional rnd s t = .ok q ∧ 0 < q ∧ q ≤ 1 ∧ |q - t / s| ≤ (2 : ℝ) ^ (-(p : ℤ)) * (t / s)) ∧ Rounded.conditional rnd s s = .ok 1 ∧
    (∀ {w : ℝ}, 0 < w → w ≤ t → ∃ a b c, Rounded.conditional rnd s t = .ok a ∧ Rounded.conditional rnd t w = .ok b ∧ Rounded.conditional rnd s w = .ok c ∧
      c ≤ a ∧ c ≤ b ∧ |a * b - c| ≤ 4 * (2 : ℝ) ^ (-(p : ℤ)) * c) := by
  have hs : 0 < s := ht.trans_le hst
  have hu := ulp_le hp
  have hu0 : 0 ≤ (2 : ℝ) ^ (-(p : ℤ)) := ulp_nonneg
  have eq : ∀ {a b : ℝ}, 0 < a → Rounded.conditional rnd a b = .ok (rnd (b / a)) := fun ha => by
    rw [Rounded.conditional, Rounded.div, pyDiv_ok ha.ne', Py.map_ok]
  refine ⟨⟨_, eq hs, ?_, R.le_of_le ((div_le_one hs).2 hst) (IsFloat.one (by omega)), ?_⟩, by rw [eq hs, div_self hs.ne', R.one (by omega)], fun {w} hw hwt => ?_⟩
  · obtain ⟨δ, hδ, e⟩ := R.factor (by omega) (t / s)
    rw [e]; exact mul_pos (div_pos ht hs) (one_add_pos hu hδ)
  · have := R.err (by omega) (t / s)
    rwa [abs_of_pos (div_pos ht hs)] at this
  · refine ⟨_, _, _, eq hs, eq ht, eq hs, R.mono (div_le_div_of_nonneg_right hwt hs.le), R.mono (div_le_div_of_nonneg_left hw.le ht hst), ?_⟩
    obtain ⟨a, ha, e1⟩ := R.factor (by omega) (t / s)
    obtain ⟨b, hb, e2⟩ := R.factor (by omega) (w / t)
    obtain ⟨c, hc, e3⟩ := R.factor (by omega) (w / s)
    have hws : 0 < w / s := div_pos hw hs
    generalize (2 : ℝ) ^ (-(p : ℤ)) = u at *
    have e : rnd (t / s) * rnd (w / t) - rnd (w / s) = (w / s) * ((a + b + a * b) - c) := by
      rw [e1, e2, e3]; field_simp; ring
    have hc1 := abs_le.1 hc
    have m : |a * b| ≤ u * (1 / 16) := by rw [abs_mul]; exact mul_le_mul ha (hb.trans hu) (abs_nonneg _) hu0
    have k : |(a + b + a * b) - c| ≤ 49 / 16 * u := by
      refine (abs_sub _ _).trans ?_
      refine (add_le_add (abs_add_le _ _) le_rfl).trans ?_
      refine (add_le_add (add_le_add (abs_add_le _ _) le_rfl) le_rfl).trans ?_
      linarith
    rw [e, abs_mul, abs_of_pos hws, e3]
    calc _ ≤ w / s * (49 / 16 * u) := mul_le_mul_of_nonneg_left k hws.le
      _ ≤ w / s * (4 * u * (1 + c)) := mul_le_mul_of_nonneg_left (by nlinarith) hws.le
      _ = _ := by ring

/-- C178 (violation): default probabilities up to `2 ^ -54` are lost, the stored survival probability is one. -/
theorem C178_violated (R : Rounding 53 rnd) {d : ℝ} (h0 : 0 < d) (h1 : d < (2 : ℝ) ^ (-54 : ℤ)) : Rounded.defaultData rnd d = 1 ∧ 1 - Rounded.defaultData rnd d ≠ d := by
  have e : rnd (1 - d) = 1 := by
    refine rnd_near R (e := -1) (IsFloat.one (by norm_num)) ?_ (by norm_num) (by norm_num) ?_
    · norm_num at h1 ⊢; linarith
    · rw [sub_sub_cancel, abs_of_pos h0]; norm_num at h1 ⊢; linarith
  have h : Rounded.defaultData rnd d = 1 := by
    rw [Rounded.defaultData, e]
    exact (C178_survival R 1).2.2.2.2 (floatMin_small.trans (by norm_num)) le_rfl
  exact ⟨h, by rw [h]; simpa using h0.ne⟩

/-! ### Examples -/

example := (C176_unrounded dayCal (o := 0) (start := 100) (stop := 200)).1 (exSmile .terminal none 0.1 0.2) (exSmile_answers _ _ _ _).1.origin
  ((exSmile_answers _ _ _ _).1.dayCount _ _) ((exSmile_answers _ _ _ _).1.call _) ((exSmile_answers _ _ _ _).1.dayCount _ _) ((exSmile_answers _ _ _ _).1.call _)
  ((exSmile_answers _ _ _ _).1.dayCount _ _)

example := (C176_unrounded dayCal (o := 0) (start := 100) (stop := 200)).2.1 (exLinear .zero none 0.1 0.2) (exLinear_answers _ _ _ _).origin
  ((exLinear_answers _ _ _ _).dayCount _ _) ((exLinear_answers _ _ _ _).call _) ((exLinear_answers _ _ _ _).dayCount _ _) ((exLinear_answers _ _ _ _).call _)
  ((exLinear_answers _ _ _ _).dayCount _ _)

/-- An fx curve with spot two at day 0, at day 10. -/
example := C177_unrounded dayCal (fxOf dayCal 0 2 (fun _ _ => .ok 1) (fun _ _ => .ok (1 / 2))) (last := 0) (x := 10) (y := 2) rfl (by norm_num)
  (by
    have := fxOf_spot (cal := dayCal) goodDayCount_int 0 (y := 2) (by norm_num) (fun _ _ => .ok 1) (fun _ _ => .ok (1 / 2))
    simp only [FxCurve.price] at this
    simpa [fxOf, pyLast, dateCurveOf] using this) rfl rfl

example := C177_unrounded_container dayCal goodDayCount_int "EUR" (fun _ _ => .ok 1) 0 (l := [("USD", fun _ _ => .ok 1, 1.1), ("GBP", fun _ _ => .ok 1, 0.9)])
  ⟨by simp, by simp, by norm_num⟩ (f := "GBP") (g := "USD") (List.mem_cons_of_mem _ (List.mem_cons_self ..)) (List.mem_cons_self ..) (by decide)

example (R : Rounding 53 rnd) := C177_cross R (by norm_num) (a := 1.1) (b := 1.3) (by norm_num) (by norm_num)

example (R : Rounding 53 rnd) := C177_triangle R (by norm_num) (a := 1.1) (b := 1.3) (c := 0.007) (by norm_num) (by norm_num) (by norm_num)

example (R : Rounding 53 rnd) := C177_order R (a := 1.1) (a' := 1) (b := 1.3) (b' := 1.4) (by norm_num) (by norm_num) (by norm_num) (by norm_num)

/-- At par the cross rate is the spot. -/
example (R : Rounding 53 rnd) : Rounded.cross rnd 1 (3 / 2) = .ok (3 / 2) := by
  simpa using C177_exact R (by norm_num) 0 (b := 3 / 2) ⟨3, -1, by norm_num, by norm_num⟩

example (R : Rounding 53 rnd) := C177_forward R (by norm_num) (y := 1.2) (f := 0.9) (d := 0.8) (by norm_num) (by norm_num) (by norm_num)

example (R : Rounding 53 rnd) := C177_violated R

/-- A survival probability of 3/4. -/
example (R : Rounding 53 rnd) : Rounded.survivalData rnd (3 / 4) = 3 / 4 :=
  (C178_survival R (3 / 4)).2.2.2.2 (floatMin_small.trans (by norm_num)) (by norm_num)

/-- A default probability of 3/4. -/
example (R : Rounding 53 rnd) : Rounded.defaultData rnd (3 / 4) = 1 / 4 := by
  rw [(C178_default R (d := 3 / 4) (by norm_num) (by norm_num)).2.2.2.2.2.1 ⟨3, -2, by norm_num, by norm_num⟩ (by norm_num) (by norm_num)]; norm_num

example (R : Rounding 53 rnd) := C178_conditional R (by norm_num) (s := 0.9) (t := 0.8) (by norm_num) (by norm_num)

example (R : Rounding 53 rnd) := C178_violated R (d := 2 ^ (-60 : ℤ)) (by positivity) (by norm_num)

end Dcf
