import Verif.Model.RoundedOptions
import Verif.Model.OptionPricing
import Verif.Props.RoundedLegs

/-! # C175: options in floating point arithmetic -/

set_option linter.unusedSectionVars false
set_option linter.unusedSimpArgs false
set_option linter.unusedVariables false

namespace Dcf

open Spec

variable {p : ℕ} {rnd : ℝ → ℝ}

/-! ### Differences of neighbours -/

theorem float_sub_of_le {x y : ℝ} (hx : IsFloat p x) (hy : IsFloat p y) (h0 : 0 < y) (h1 : y ≤ x) (h2 : x ≤ 2 * y) : IsFloat p (x - y) := by
  obtain ⟨e, he1, he2⟩ := exists_exponent h0.ne'
  obtain ⟨j, hj⟩ := hy.multiple he1
  rw [abs_of_pos h0] at he1 he2
  obtain ⟨k, hk⟩ := hx.multiple (e := e) (by rw [abs_of_pos (by linarith)]; linarith)
  refine ⟨k - j, e - p + 1, ?_, by rw [hk, hj]; push_cast; ring⟩
  have hs : 0 < (2 : ℝ) ^ (e - p + 1) := by positivity
  have h3 : x - y = ((k - j : ℤ) : ℝ) * (2 : ℝ) ^ (e - p + 1) := by rw [hk, hj]; push_cast; ring
  have h4 : (0 : ℝ) ≤ ((k - j : ℤ) : ℝ) := by
    by_contra h
    have := mul_neg_of_neg_of_pos (not_le.1 h) hs
    linarith
  have h5 : ((k - j : ℤ) : ℝ) < 2 ^ p := by
    have e1 : (2 : ℝ) ^ (e + 1) = (2 : ℝ) ^ p * (2 : ℝ) ^ (e - p + 1) := by
      rw [← zpow_natCast, ← zpow_add₀ (by norm_num)]; congr 1; ring
    have : ((k - j : ℤ) : ℝ) * (2 : ℝ) ^ (e - p + 1) < (2 : ℝ) ^ p * (2 : ℝ) ^ (e - p + 1) := by rw [← h3, ← e1]; linarith
    exact lt_of_mul_lt_mul_right this hs.le
  rw [abs_of_nonneg (by exact_mod_cast h4)]
  exact_mod_cast h5

/-- The difference of floats within a factor of two is a float. -/
theorem float_sub {x y : ℝ} (hx : IsFloat p x) (hy : IsFloat p y) (h1 : y ≤ 2 * x) (h2 : x ≤ 2 * y) : IsFloat p (x - y) := by
  rcases eq_or_ne y 0 with rfl | h0
  · obtain rfl : x = 0 := by linarith
    simpa using IsFloat.zero
  rcases le_total y x with h | h
  · exact float_sub_of_le hx hy (by rcases lt_or_gt_of_ne h0 with h' | h' <;> linarith) h h2
  · have : IsFloat p (y - x) := by
      rcases eq_or_ne x 0 with rfl | hx0
      · simpa using hy
      · exact float_sub_of_le hy hx (by rcases lt_or_gt_of_ne hx0 with h' | h' <;> linarith) h h1
    simpa using this.neg

/-- The float nearer than half of the spacing. -/
theorem rnd_near (R : Rounding p rnd) {e : ℤ} {x f : ℝ} (hf : IsFloat p f) (hx : (2 : ℝ) ^ e ≤ x) (hfe : (2 : ℝ) ^ e ≤ f)
    (hp : 1 ≤ p) (h : 2 * |f - x| < (2 : ℝ) ^ (e - p + 1)) : rnd x = f := by
  have hpos : 0 < (2 : ℝ) ^ e := by positivity
  have hs0 : 0 < (2 : ℝ) ^ (e - p + 1) := by positivity
  have h1 : (2 : ℝ) ^ e ≤ rnd x := R.ge_of_ge hx (IsFloat.two_zpow hp e)
  obtain ⟨k, hk⟩ := (R.float x).multiple (e := e) (by rw [abs_of_pos (by linarith)]; exact h1)
  obtain ⟨j, hj⟩ := hf.multiple (e := e) (by rw [abs_of_pos (by linarith)]; exact hfe)
  have h2 := R.nearest x f hf
  have h3 : |rnd x - f| < (2 : ℝ) ^ (e - p + 1) := by
    calc |rnd x - f| = |(rnd x - x) - (f - x)| := by congr 1; ring
      _ ≤ |rnd x - x| + |f - x| := abs_sub _ _
      _ < _ := by linarith
  have h4 : |((k - j : ℤ) : ℝ)| < 1 := by
    have : rnd x - f = ((k - j : ℤ) : ℝ) * (2 : ℝ) ^ (e - p + 1) := by rw [hk, hj]; push_cast; ring
    rw [this, abs_mul, abs_of_pos hs0] at h3
    by_contra h'
    have := mul_le_mul_of_nonneg_right (not_lt.1 h') hs0.le
    linarith
  have h5 : k = j := by
    have : |k - j| < 1 := by exact_mod_cast h4
    rw [Int.abs_lt_one_iff] at this
    omega
  rw [hk, hj, h5]

/-! ### The exact model -/

theorem shift_id : Rounded.shift id = 0.0001 := by norm_num [Rounded.shift]

/-- C175: without rounding these are the functions of the model. -/
theorem C175_unrounded {D P : Type} (cal : Cal D P) (m : OptModel D) {date : D} {strike : Option ℝ} {d : OptDetails D} {F : ℝ}
    (hd : m.details cal date strike = .ok d) (hF : d.fwd = .ok F) :
    m.callValue cal date strike = Rounded.callValue id (fun t => m.formula.price (.ok t)) d.time d.strike F (d.volatility.getD 0) ∧
    m.putValue cal date strike = Rounded.putValue id (fun t => m.formula.price (.ok t)) d.time d.strike F (d.volatility.getD 0) ∧
    (m.bump = true → m.callDelta cal date strike = Rounded.callDelta id (fun t => m.formula.price (.ok t)) d.time d.strike F (d.volatility.getD 0)) ∧
    (m.bump = true → ∀ num, m.callGamma cal num date strike =
      Rounded.callGamma id (fun t => m.formula.price (.ok t)) d.time d.strike F (d.volatility.getD 0)) := by
  refine ⟨?_, ?_, fun hb => ?_, fun hb num => ?_⟩
  · simp [OptModel.callValue, Rounded.callValue, hd, hF, OptDetails.flat]
  · simp [OptModel.putValue, Rounded.putValue, hd, hF, OptDetails.flat]
  · by_cases h0 : d.volatility.getD 0 = 0 ∨ d.time = 0 <;>
      simp [OptModel.callDelta, Rounded.callDelta, hd, hF, OptDetails.flat, hb, shift_id, Rounded.div, h0, pyDiv]
  · by_cases h0 : d.volatility.getD 0 = 0 ∨ d.time = 0 <;>
      simp [OptModel.callGamma, Rounded.callGamma, hd, hF, OptDetails.flat, hb, shift_id, Rounded.div, h0, pyDiv]

/-- C175: the formulas without rounding: call spreads and intrinsic values. -/
theorem C175_unrounded_formulas (inner : OptFormula) (s : Option ℝ) (t K F v : ℝ) :
    (binaryFormula inner s).price (.ok t) K F v = Rounded.binaryPrice id (fun t => inner.price (.ok t)) t K F v ∧
    intrinsicFormula.price (.ok t) K F v = Rounded.intrinsicPrice id t K F v := by
  constructor
  · simp [binaryFormula, Rounded.binaryPrice, shift_id, Rounded.div, pyDiv]
  · simp [intrinsicFormula, Rounded.intrinsicPrice]

/-! ### Values without volatility or time -/

/-- C175 (intrinsic values): a call and a put without volatility or time are never negative, one of them is worth nothing, their difference is exactly the
computed `F - K`, each has a relative error of at most `2 ^ -p` and is exact for forwards and strikes within a factor of two. -/
theorem C175_intrinsic (R : Rounding p rnd) (hp : 4 ≤ p) (hs : Symmetric rnd) (price : ℝ → ℝ → ℝ → ℝ → Py ℝ) {t K F v : ℝ} (h : v = 0 ∨ t = 0) :
    ∃ c q, Rounded.callValue rnd price t K F v = .ok c ∧ Rounded.putValue rnd price t K F v = .ok q ∧ 0 ≤ c ∧ 0 ≤ q ∧ (c = 0 ∨ q = 0) ∧
      c - q = rnd (F - K) ∧ |c - max (F - K) 0| ≤ (2 : ℝ) ^ (-(p : ℤ)) * max (F - K) 0 ∧ |q - max (K - F) 0| ≤ (2 : ℝ) ^ (-(p : ℤ)) * max (K - F) 0 ∧
      (IsFloat p F → IsFloat p K → K ≤ 2 * F → F ≤ 2 * K → c = max (F - K) 0 ∧ q = max (K - F) 0) := by
  have key : ∀ x : ℝ, |max (rnd x) 0 - max x 0| ≤ (2 : ℝ) ^ (-(p : ℤ)) * max x 0 := by
    intro x
    rcases le_total 0 x with hx | hx
    · rw [max_eq_left (R.nonneg hx), max_eq_left hx]
      have := R.err (by omega) x
      rwa [abs_of_nonneg hx] at this
    · rw [max_eq_right (R.nonpos hx), max_eq_right hx]; simp
  refine ⟨_, _, if_pos h, if_pos h, le_max_right _ _, le_max_right _ _, ?_, ?_, key _, key _, fun hF hK h1 h2 => ?_⟩
  · rcases le_total F K with h' | h'
    · exact .inl (max_eq_right (R.nonpos (by linarith)))
    · exact .inr (max_eq_right (R.nonpos (by linarith)))
  · rw [show K - F = -(F - K) by ring, hs]
    rcases le_total 0 (rnd (F - K)) with h' | h'
    · rw [max_eq_left h', max_eq_right (by linarith)]; ring
    · rw [max_eq_right h', max_eq_left (by linarith)]; ring
  · rw [R.eq_self (float_sub hF hK h1 h2), R.eq_self (float_sub hK hF h2 h1)]
    exact ⟨rfl, rfl⟩

/-- C175 (order): a higher forward or a lower strike makes no call cheaper and no put dearer. -/
theorem C175_order (R : Rounding p rnd) (price : ℝ → ℝ → ℝ → ℝ → Py ℝ) {t K F v K' F' : ℝ} (h : v = 0 ∨ t = 0) (hF : F ≤ F') (hK : K' ≤ K) :
    ∃ c c' q q', Rounded.callValue rnd price t K F v = .ok c ∧ Rounded.callValue rnd price t K' F' v = .ok c' ∧ Rounded.putValue rnd price t K F v = .ok q ∧
      Rounded.putValue rnd price t K' F' v = .ok q' ∧ c ≤ c' ∧ q' ≤ q :=
  ⟨_, _, _, _, if_pos h, if_pos h, if_pos h, if_pos h, max_le_max (R.mono (by linarith)) le_rfl, max_le_max (R.mono (by linarith)) le_rfl⟩

/-! ### Puts -/

/-- C175 (puts): the put found by parity from the computed call `c` misses `K - F + c` by at most `2 ^ -p` times its size plus twice that of `K - F`; it is
not negative if and only if the call is worth at least the computed `F - K`; at the money it is the call; it increases with the call. -/
theorem C175_put (R : Rounding p rnd) (hp : 4 ≤ p) (hs : Symmetric rnd) {price : ℝ → ℝ → ℝ → ℝ → Py ℝ} {t K F v c : ℝ} (h : ¬ (v = 0 ∨ t = 0))
    (hc : Rounded.callValue rnd price t K F v = .ok c) :
    ∃ q, Rounded.putValue rnd price t K F v = .ok q ∧
      |q - (K - F + c)| ≤ (2 : ℝ) ^ (-(p : ℤ)) * (|K - F + c| + 2 * |K - F|) ∧
      (0 ≤ q ↔ rnd (F - K) ≤ c) ∧ (K = F → IsFloat p c → q = c) ∧
      (IsFloat p F → IsFloat p K → K ≤ 2 * F → F ≤ 2 * K → q = rnd (K - F + c)) := by
  rw [Rounded.callValue, if_neg h] at hc
  refine ⟨rnd (rnd (K - F) + c), by rw [Rounded.putValue, if_neg h, hc, Py.ok_bind], ?_, ?_, ?_, ?_⟩
  · have hu := ulp_le hp
    have hu0 : 0 ≤ (2 : ℝ) ^ (-(p : ℤ)) := ulp_nonneg
    obtain ⟨a, ha, e1⟩ := R.factor (by omega) (K - F)
    obtain ⟨b, hb, e2⟩ := R.factor (by omega) (rnd (K - F) + c)
    generalize (2 : ℝ) ^ (-(p : ℤ)) = u at *
    have e : rnd (rnd (K - F) + c) - (K - F + c) = (K - F + c) * b + (K - F) * (a * (1 + b)) := by rw [e2, e1]; ring
    have m1 : |(K - F + c) * b| ≤ u * |K - F + c| := by
      rw [abs_mul, mul_comm]; exact mul_le_mul_of_nonneg_right hb (abs_nonneg _)
    have m2 : |(K - F) * (a * (1 + b))| ≤ u * (2 * |K - F|) := by
      have h2 : |1 + b| ≤ 2 := (abs_add_le _ _).trans (by rw [abs_one]; linarith)
      have h3 : |a * (1 + b)| ≤ u * 2 := by rw [abs_mul]; exact mul_le_mul ha h2 (abs_nonneg _) hu0
      rw [abs_mul]
      calc |K - F| * |a * (1 + b)| ≤ |K - F| * (u * 2) := mul_le_mul_of_nonneg_left h3 (abs_nonneg _)
        _ = _ := by ring
    rw [e]
    calc _ ≤ _ := abs_add_le _ _
      _ ≤ u * |K - F + c| + u * (2 * |K - F|) := add_le_add m1 m2
      _ = _ := by ring
  · have e : rnd (K - F) = -rnd (F - K) := by rw [← hs]; congr 1; ring
    rw [e]
    constructor
    · intro h0
      by_contra hlt
      obtain ⟨b, hb, e2⟩ := R.factor (by omega) (-rnd (F - K) + c)
      rw [e2] at h0
      have := mul_neg_of_neg_of_pos (show -rnd (F - K) + c < 0 by linarith) (one_add_pos (ulp_le hp) hb)
      linarith
    · exact fun h0 => R.nonneg (by linarith)
  · rintro rfl hf
    rw [sub_self, R.zero, zero_add, R.eq_self hf]
  · intro hF hK h1 h2
    rw [R.eq_self (float_sub hK hF h2 h1)]

/-- C175 (puts, order): a dearer call never makes the put cheaper. -/
theorem C175_put_order (R : Rounding p rnd) {price price' : ℝ → ℝ → ℝ → ℝ → Py ℝ} {t K F v c c' q q' : ℝ} (h : ¬ (v = 0 ∨ t = 0))
    (hc : Rounded.callValue rnd price t K F v = .ok c) (hc' : Rounded.callValue rnd price' t K F v = .ok c')
    (hq : Rounded.putValue rnd price t K F v = .ok q) (hq' : Rounded.putValue rnd price' t K F v = .ok q') (hcc : c ≤ c') : q ≤ q' := by
  rw [Rounded.callValue, if_neg h] at hc hc'
  rw [Rounded.putValue, if_neg h, hc, Py.ok_bind] at hq
  rw [Rounded.putValue, if_neg h, hc', Py.ok_bind] at hq'
  rw [← Except.ok.inj hq, ← Except.ok.inj hq']
  exact R.mono (by linarith)

/-! ### Bumped sensitivities -/

theorem shift_pos (R : Rounding p rnd) (hp : 4 ≤ p) : 0 < Rounded.shift rnd := by
  obtain ⟨a, ha, e⟩ := R.factor (by omega) (1 / 10000)
  rw [Rounded.shift, e]
  exact mul_pos (by norm_num) (one_add_pos (ulp_le hp) ha)

/-- C175 (bumped deltas): if prices are found with errors up to `ε` then the bumped delta misses the exact difference quotient, of the forward and of the
forward plus the shift as a float, by the rounding of the difference and by three times the error divided by the shift, in basis points. -/
theorem C175_delta (R : Rounding p rnd) (hp : 4 ≤ p) {price : ℝ → ℝ → ℝ → ℝ → Py ℝ} {t K F v up base UP BASE ε : ℝ} (h : ¬ (v = 0 ∨ t = 0))
    (h1 : price t K (rnd (F + Rounded.shift rnd)) v = .ok up) (h2 : price t K F v = .ok base) (e1 : |up - UP| ≤ ε) (e2 : |base - BASE| ≤ ε) :
    ∃ δ, Rounded.callDelta rnd price t K F v = .ok δ ∧
      |δ - (UP - BASE) / Rounded.shift rnd * (1 / 10000)| ≤ (5 * (2 : ℝ) ^ (-(p : ℤ)) * |UP - BASE| + 3 * ε) / Rounded.shift rnd * (1 / 10000) := by
  have h0 := shift_pos R hp
  obtain ⟨b, hb, hε⟩ := C174_basis_point R hp (shift := Rounded.shift rnd) h0.ne' e2 e1
  rw [abs_of_pos h0] at hε
  refine ⟨b, ?_, hε⟩
  rw [Rounded.callDelta, if_neg h, h1, Py.ok_bind, h2, Py.ok_bind]
  exact hb

/-- C175 (bumped gammas): the second difference of prices found with errors up to `ε` is found up to four times that error and the rounding of the
differences. -/
theorem C175_gamma (R : Rounding p rnd) (hp : 4 ≤ p) {price : ℝ → ℝ → ℝ → ℝ → Py ℝ} {t K F v up base down UP BASE DOWN ε : ℝ} (h : ¬ (v = 0 ∨ t = 0))
    (h1 : price t K (rnd (F + Rounded.shift rnd)) v = .ok up) (h2 : price t K F v = .ok base) (h3 : price t K (rnd (F - Rounded.shift rnd)) v = .ok down)
    (hf : IsFloat p base) (e1 : |up - UP| ≤ ε) (e2 : |base - BASE| ≤ ε) (e3 : |down - DOWN| ≤ ε) :
    ∃ γ, Rounded.callGamma rnd price t K F v = .ok γ ∧
      |γ - (UP - 2 * BASE + DOWN)| ≤ (2 : ℝ) ^ (-(p : ℤ)) * (|up - 2 * base + down| + 2 * |up - 2 * base|) + 4 * ε := by
  have h0 := shift_pos R hp
  have hq : Rounded.div rnd (Rounded.shift rnd) (Rounded.shift rnd) = .ok 1 := by
    rw [Rounded.div, pyDiv_ok h0.ne', Py.map_ok, div_self h0.ne', R.one (by omega)]
  refine ⟨rnd (rnd (up - 2 * base) + down), ?_, ?_⟩
  · rw [Rounded.callGamma, if_neg h, h1, Py.ok_bind, h2, Py.ok_bind, h3, Py.ok_bind, hq, Py.ok_bind, one_pow, R.one (by omega), mul_one, R.idem,
      R.eq_self (IsFloat.double_iff.2 hf)]
  · have hu := ulp_le hp
    have hu0 : 0 ≤ (2 : ℝ) ^ (-(p : ℤ)) := ulp_nonneg
    obtain ⟨a, ha, k1⟩ := R.factor (by omega) (up - 2 * base)
    obtain ⟨b, hb, k2⟩ := R.factor (by omega) (rnd (up - 2 * base) + down)
    generalize (2 : ℝ) ^ (-(p : ℤ)) = u at *
    have e : rnd (rnd (up - 2 * base) + down) - (UP - 2 * BASE + DOWN) =
        ((up - 2 * base + down) * b + (up - 2 * base) * (a * (1 + b))) + ((up - UP) - 2 * (base - BASE) + (down - DOWN)) := by rw [k2, k1]; ring
    have m1 : |(up - 2 * base + down) * b| ≤ u * |up - 2 * base + down| := by
      rw [abs_mul, mul_comm]; exact mul_le_mul_of_nonneg_right hb (abs_nonneg _)
    have m2 : |(up - 2 * base) * (a * (1 + b))| ≤ u * (2 * |up - 2 * base|) := by
      have h2 : |1 + b| ≤ 2 := (abs_add_le _ _).trans (by rw [abs_one]; linarith)
      have h3 : |a * (1 + b)| ≤ u * 2 := by rw [abs_mul]; exact mul_le_mul ha h2 (abs_nonneg _) hu0
      rw [abs_mul]
      calc |up - 2 * base| * |a * (1 + b)| ≤ |up - 2 * base| * (u * 2) := mul_le_mul_of_nonneg_left h3 (abs_nonneg _)
        _ = _ := by ring
    have m3 : |(up - UP) - 2 * (base - BASE) + (down - DOWN)| ≤ 4 * ε := by
      rw [abs_le] at *
      constructor <;> linarith
    rw [e]
    calc _ ≤ _ := abs_add_le _ _
      _ ≤ (u * |up - 2 * base + down| + u * (2 * |up - 2 * base|)) + 4 * ε := add_le_add ((abs_add_le _ _).trans (add_le_add m1 m2)) m3
      _ = _ := by ring

/-- C175 (binary options): call spreads of prices found with errors up to `ε` at the strikes as floats. -/
theorem C175_binary (R : Rounding p rnd) (hp : 4 ≤ p) {inner : ℝ → ℝ → ℝ → ℝ → Py ℝ} {t K F v low high LOW HIGH ε : ℝ}
    (h1 : inner t (rnd (K - Rounded.shift rnd / 2)) F v = .ok low) (h2 : inner t (rnd (K + Rounded.shift rnd / 2)) F v = .ok high)
    (e1 : |low - LOW| ≤ ε) (e2 : |high - HIGH| ≤ ε) :
    ∃ b, Rounded.binaryPrice rnd inner t K F v = .ok b ∧
      |b - (LOW - HIGH) / Rounded.shift rnd| ≤ (3 * (2 : ℝ) ^ (-(p : ℤ)) * |LOW - HIGH| + 3 * ε) / Rounded.shift rnd := by
  have h0 := shift_pos R hp
  have hh : rnd (Rounded.shift rnd / 2) = Rounded.shift rnd / 2 := R.eq_self (IsFloat.double_iff.1 (by rw [mul_div_cancel₀ _ (by norm_num : (2 : ℝ) ≠ 0)]; exact R.float _))
  have hu := ulp_le hp
  have hu0 : 0 ≤ (2 : ℝ) ^ (-(p : ℤ)) := ulp_nonneg
  obtain ⟨a, ha, k1⟩ := R.factor (by omega) (low - high)
  obtain ⟨b, hb, k2⟩ := R.factor (by omega) (rnd (low - high) / Rounded.shift rnd)
  refine ⟨rnd (rnd (low - high) / Rounded.shift rnd), ?_, ?_⟩
  · simp only [Rounded.binaryPrice, hh, h1, h2, Py.ok_bind, Rounded.div]
    rw [pyDiv_ok h0.ne', Py.map_ok]
  · generalize (2 : ℝ) ^ (-(p : ℤ)) = u at *
    generalize Rounded.shift rnd = s at *
    set T := (1 + a) * (1 + b) with hT
    have hT1 : |T - 1| ≤ 3 * u := by
      have := factor_mul (a := 1 + a) (k := 1) hu (by norm_num) (by rw [add_sub_cancel_left]; linarith) hb
      refine this.trans ?_
      nlinarith
    have hTb : |T| ≤ 3 / 2 := by
      have := abs_add_le (T - 1) 1
      rw [sub_add_cancel, abs_one] at this
      linarith
    have e : rnd (rnd (low - high) / s) - (LOW - HIGH) / s = ((LOW - HIGH) * (T - 1) + ((low - LOW) - (high - HIGH)) * T) / s := by
      rw [k2, k1, hT]; field_simp; ring
    have m1 : |(LOW - HIGH) * (T - 1)| ≤ 3 * u * |LOW - HIGH| := by
      rw [abs_mul, mul_comm]; exact mul_le_mul_of_nonneg_right hT1 (abs_nonneg _)
    have m2 : |((low - LOW) - (high - HIGH)) * T| ≤ 3 * ε := by
      have : |(low - LOW) - (high - HIGH)| ≤ 2 * ε := (abs_sub _ _).trans (by linarith)
      rw [abs_mul]
      calc _ ≤ 2 * ε * (3 / 2) := mul_le_mul this hTb (abs_nonneg _) ((abs_nonneg _).trans this)
        _ = 3 * ε := by ring
    rw [e, abs_div, abs_of_pos h0]
    exact div_le_div_of_nonneg_right ((abs_add_le _ _).trans (add_le_add m1 m2)) h0.le

/-! ### Violations -/

theorem shift_bounds (R : Rounding 53 rnd) : 0.00009999 < Rounded.shift rnd ∧ Rounded.shift rnd < 0.00010001 := by
  have := R.err (by norm_num) (1 / 10000)
  have h : (2 : ℝ) ^ (-((53 : ℕ) : ℤ)) ≤ 1 / 100000 := by norm_num
  have h' : |rnd (1 / 10000) - 1 / 10000| ≤ 1 / 100000 * (1 / 10000) := this.trans (by
    rw [abs_of_pos (by norm_num)]; exact mul_le_mul_of_nonneg_right h (by norm_num))
  rw [abs_le] at h'
  rw [Rounded.shift]
  constructor <;> norm_num at h' ⊢ <;> linarith

/-- C175 (violation, deltas): at a forward of `2 ^ 40` the shift is lost: the bumped delta of every pricing formula is zero, while it is one basis point without
rounding, here for the intrinsic formula and a strike below the forward. -/
theorem C175_delta_violated (R : Rounding 53 rnd) {price : ℝ → ℝ → ℝ → ℝ → Py ℝ} {t K v base : ℝ} (h : ¬ (v = 0 ∨ t = 0))
    (hb : price t K (2 ^ 40) v = .ok base) :
    Rounded.callDelta rnd price t K (2 ^ 40) v = .ok 0 ∧
    (K ≤ 2 ^ 40 → Rounded.callDelta id (Rounded.intrinsicPrice id) t K (2 ^ 40) v = .ok (1 / 10000)) := by
  obtain ⟨h1, h2⟩ := shift_bounds R
  constructor
  · have e : rnd (2 ^ 40 + Rounded.shift rnd) = 2 ^ 40 := by
      have := rnd_absorb R (by norm_num) (e := 40) (y := Rounded.shift rnd) (by linarith) (by norm_num; linarith)
      exact_mod_cast this
    rw [Rounded.callDelta, if_neg h, e, hb, Py.ok_bind, Py.ok_bind, sub_self, R.zero, Rounded.div, pyDiv_ok (by linarith), Py.map_ok, Py.ok_bind, zero_div,
      R.zero, zero_mul, R.zero]
  · intro hK
    rw [Rounded.callDelta, if_neg h]
    simp only [Rounded.intrinsicPrice, Py.ok_bind, Rounded.div, id, shift_id]
    rw [pyDiv_ok (by norm_num), Py.map_ok, Py.ok_bind, max_eq_left (by linarith [show (0 : ℝ) < 0.0001 by norm_num]), max_eq_left (by linarith)]
    norm_num

/-- C175 (violation, gammas): at a forward of `2 ^ 40` the bumped gamma of a call, convex in the forward, is negative. -/
theorem C175_gamma_violated (R : Rounding 53 rnd) {t v : ℝ} (h : ¬ (v = 0 ∨ t = 0)) :
    Rounded.callGamma rnd (Rounded.intrinsicPrice rnd) t (2 ^ 39) (2 ^ 40) v = .ok (-(2 : ℝ) ^ (-13 : ℤ)) ∧
    Rounded.callGamma id (Rounded.intrinsicPrice id) t (2 ^ 39) (2 ^ 40) v = .ok 0 := by
  obtain ⟨h1, h2⟩ := shift_bounds R
  constructor
  · have e1 : rnd (2 ^ 40 + Rounded.shift rnd) = 2 ^ 40 := by
      have := rnd_absorb R (by norm_num) (e := 40) (y := Rounded.shift rnd) (by linarith) (by norm_num; linarith)
      exact_mod_cast this
    have e2 : rnd (2 ^ 40 - Rounded.shift rnd) = 2 ^ 40 - 2 ^ (-13 : ℤ) :=
      rnd_near R (e := 39) ⟨2 ^ 53 - 1, -13, by norm_num, by norm_num⟩ (by norm_num; linarith) (by norm_num) (by norm_num)
        (by rw [← lt_div_iff₀' (by norm_num), abs_lt]; constructor <;> norm_num <;> linarith)
    have e3 : rnd (2 ^ 40 - 2 ^ 39) = 2 ^ 39 := by rw [R.eq_self ⟨1, 39, by norm_num, by norm_num⟩]; norm_num
    have e4 : rnd (2 ^ 40 - 2 ^ (-13 : ℤ) - 2 ^ 39) = 2 ^ 39 - 2 ^ (-13 : ℤ) := by
      rw [R.eq_self ⟨2 ^ 52 - 1, -13, by norm_num, by norm_num⟩]; norm_num
    have e5 : rnd (2 * 2 ^ 39) = 2 ^ 40 := by rw [R.eq_self ⟨1, 40, by norm_num, by norm_num⟩]; norm_num
    have e6 : rnd (2 ^ 39 - 2 ^ 40) = -2 ^ 39 := by rw [R.eq_self ⟨-1, 39, by norm_num, by norm_num⟩]; norm_num
    have e7 : rnd (-2 ^ 39 + (2 ^ 39 - 2 ^ (-13 : ℤ))) = -(2 : ℝ) ^ (-13 : ℤ) := by
      rw [R.eq_self ⟨-1, -13, by norm_num, by norm_num⟩]; norm_num
    have e8 : rnd (-(2 : ℝ) ^ (-13 : ℤ)) = -(2 : ℝ) ^ (-13 : ℤ) := R.eq_self ⟨-1, -13, by norm_num, by norm_num⟩
    have hq : Rounded.div rnd (Rounded.shift rnd) (Rounded.shift rnd) = .ok 1 := by
      rw [Rounded.div, pyDiv_ok (by linarith), Py.map_ok, div_self (by linarith), R.one (by omega)]
    have m1 : max (2 ^ 39 : ℝ) 0 = 2 ^ 39 := max_eq_left (by positivity)
    have m2 : max (2 ^ 39 - 2 ^ (-13 : ℤ) : ℝ) 0 = 2 ^ 39 - 2 ^ (-13 : ℤ) := max_eq_left (by norm_num)
    rw [Rounded.callGamma, if_neg h]
    simp only [Rounded.intrinsicPrice, Py.ok_bind, e1, e2, e3, e4, hq, m1, m2, e5, e6, e7, one_pow, R.one (by norm_num : 1 ≤ 53), mul_one, e8]
  · rw [Rounded.callGamma, if_neg h]
    simp only [Rounded.intrinsicPrice, Py.ok_bind, Rounded.div, id, shift_id]
    rw [pyDiv_ok (by norm_num), Py.map_ok, Py.ok_bind, max_eq_left (by norm_num), max_eq_left (by norm_num), max_eq_left (by norm_num)]
    norm_num

/-- C175 (violation, binary options): with a strike of `2 ^ 38` a binary call is worth more than 1.2, with a strike of `2 ^ 41` it is worth nothing at any
forward; without rounding they are worth one when the forward is twice the strike. -/
theorem C175_binary_violated (R : Rounding 53 rnd) (t v F : ℝ) :
    (∃ b, Rounded.binaryPrice rnd (Rounded.intrinsicPrice rnd) t (2 ^ 38) (2 ^ 39) v = .ok b ∧ 1.2 < b) ∧
    Rounded.binaryPrice rnd (Rounded.intrinsicPrice rnd) t (2 ^ 41) F v = .ok 0 ∧
    (∀ K : ℝ, 1 ≤ K → Rounded.binaryPrice id (Rounded.intrinsicPrice id) t K (2 * K) v = .ok 1) := by
  obtain ⟨h1, h2⟩ := shift_bounds R
  have hh : rnd (Rounded.shift rnd / 2) = Rounded.shift rnd / 2 :=
    R.eq_self (IsFloat.double_iff.1 (by rw [mul_div_cancel₀ _ (by norm_num : (2 : ℝ) ≠ 0)]; exact R.float _))
  refine ⟨?_, ?_, fun K hK => ?_⟩
  · have e1 : rnd (2 ^ 38 + Rounded.shift rnd / 2) = 2 ^ 38 + 2 ^ (-14 : ℤ) :=
      rnd_near R (e := 38) ⟨2 ^ 52 + 1, -14, by norm_num, by norm_num⟩ (by norm_num; linarith) (by norm_num) (by norm_num)
        (by rw [← lt_div_iff₀' (by norm_num), abs_lt]; constructor <;> norm_num <;> linarith)
    have e2 : rnd (2 ^ 38 - Rounded.shift rnd / 2) = 2 ^ 38 - 2 ^ (-14 : ℤ) :=
      rnd_near R (e := 37) ⟨2 ^ 52 - 1, -14, by norm_num, by norm_num⟩ (by norm_num; linarith) (by norm_num) (by norm_num)
        (by rw [← lt_div_iff₀' (by norm_num), abs_lt]; constructor <;> norm_num <;> linarith)
    have e3 : rnd (2 ^ 39 - (2 ^ 38 - 2 ^ (-14 : ℤ))) = 2 ^ 38 + 2 ^ (-14 : ℤ) := by
      rw [R.eq_self ⟨2 ^ 52 + 1, -14, by norm_num, by norm_num⟩]; norm_num
    have e4 : rnd (2 ^ 39 - (2 ^ 38 + 2 ^ (-14 : ℤ))) = 2 ^ 38 - 2 ^ (-14 : ℤ) := by
      rw [R.eq_self ⟨2 ^ 52 - 1, -14, by norm_num, by norm_num⟩]; norm_num
    have e5 : rnd (2 ^ 38 + 2 ^ (-14 : ℤ) - (2 ^ 38 - 2 ^ (-14 : ℤ))) = 2 ^ (-13 : ℤ) := by
      rw [R.eq_self ⟨1, -13, by norm_num, by norm_num⟩]; norm_num
    refine ⟨rnd (2 ^ (-13 : ℤ) / Rounded.shift rnd), ?_, ?_⟩
    · simp only [Rounded.binaryPrice, Rounded.intrinsicPrice, Py.ok_bind, hh, e1, e2, e3, e4]
      rw [max_eq_left (by norm_num), max_eq_left (by norm_num), e5, Rounded.div, pyDiv_ok (by linarith), Py.map_ok]
    · refine lt_of_lt_of_le (by norm_num : (1.2 : ℝ) < 39 / 32) (R.ge_of_ge ?_ ⟨39, -5, by norm_num, by norm_num⟩)
      rw [le_div_iff₀ (by linarith)]
      norm_num
      linarith
  · have e1 : rnd (2 ^ 41 + Rounded.shift rnd / 2) = 2 ^ 41 :=
      rnd_near R (e := 41) ⟨1, 41, by norm_num, by norm_num⟩ (by norm_num; linarith) (by norm_num) (by norm_num)
        (by rw [← lt_div_iff₀' (by norm_num), abs_lt]; constructor <;> norm_num <;> linarith)
    have e2 : rnd (2 ^ 41 - Rounded.shift rnd / 2) = 2 ^ 41 :=
      rnd_near R (e := 40) ⟨1, 41, by norm_num, by norm_num⟩ (by norm_num; linarith) (by norm_num) (by norm_num)
        (by rw [← lt_div_iff₀' (by norm_num), abs_lt]; constructor <;> norm_num <;> linarith)
    simp only [Rounded.binaryPrice, Rounded.intrinsicPrice, Py.ok_bind, hh, e1, e2, sub_self, R.zero]
    rw [Rounded.div, pyDiv_ok (by linarith), Py.map_ok, zero_div, R.zero]
  · simp only [Rounded.binaryPrice, Rounded.intrinsicPrice, Py.ok_bind, Rounded.div, id, shift_id]
    have h5 : (0.0001 : ℝ) / 2 < 1 := by norm_num
    rw [pyDiv_ok (by norm_num), Py.map_ok, max_eq_left (by linarith), max_eq_left (by linarith)]
    congr 1
    norm_num

/-! ### Examples -/

/-- A bumping model with a forward of 100 and a volatility of 1/5. -/
noncomputable def exBumped : OptModel ℝ := ⟨some 0, .num 100, .num (1 / 5), none, true, intrinsicFormula⟩

theorem exBumped_details : exBumped.details floatCal 1 (some 90) = .ok ⟨some 0, some 1, some 100, 90, some (1 / 5), 1⟩ := by
  simp [exBumped, OptModel.details, Fwd.optionForward, Fwd.truthy, Vol.eval, OptModel.time, Vol.dayCount, Fwd.dayCount, floatCal]

example := C175_unrounded floatCal exBumped exBumped_details rfl

example := C175_unrounded_formulas intrinsicFormula none 1 90 100 (1 / 5)

/-- A price in floats: the intrinsic value plus one half. -/
noncomputable def exTimePrice (rnd : ℝ → ℝ) (_t K F _v : ℝ) : Py ℝ := .ok (rnd (max (rnd (F - K)) 0 + 1 / 2))

/-- At a forward of 3/2 and a strike of 1 a call without time is worth exactly one half, the put nothing. -/
example (R : Rounding 53 rnd) (hs : Symmetric rnd) :
    ∃ c q, Rounded.callValue rnd (exTimePrice rnd) 0 1 (3 / 2) 1 = .ok c ∧ Rounded.putValue rnd (exTimePrice rnd) 0 1 (3 / 2) 1 = .ok q ∧ c = 1 / 2 ∧ q = 0 := by
  obtain ⟨c, q, hc, hq, _, _, _, _, _, _, h⟩ := C175_intrinsic R (by norm_num) hs (exTimePrice rnd) (t := 0) (K := 1) (F := 3 / 2) (v := 1) (.inr rfl)
  obtain ⟨rfl, rfl⟩ := h ⟨3, -1, by norm_num, by norm_num⟩ ⟨1, 0, by norm_num, by norm_num⟩ (by norm_num) (by norm_num)
  exact ⟨_, _, hc, hq, by norm_num, by norm_num⟩

/-- A forward of 2 instead of 3/2. -/
example (R : Rounding 53 rnd) := C175_order R (exTimePrice rnd) (t := 0) (K := 1) (F := 3 / 2) (v := 1) (K' := 1) (F' := 2) (.inr rfl) (by norm_num) le_rfl

theorem exTimePrice_call (R : Rounding 53 rnd) : Rounded.callValue rnd (exTimePrice rnd) 1 1 (3 / 2) (1 / 4) = .ok 1 := by
  rw [Rounded.callValue, if_neg (by norm_num), exTimePrice, R.eq_self (x := 3 / 2 - 1) ⟨1, -1, by norm_num, by norm_num⟩, max_eq_left (by norm_num)]
  rw [R.eq_self ⟨1, 0, by norm_num, by norm_num⟩]
  norm_num

/-- A call worth one at a forward of 3/2 and a strike of 1: the put is worth one half. -/
example (R : Rounding 53 rnd) (hs : Symmetric rnd) : Rounded.putValue rnd (exTimePrice rnd) 1 1 (3 / 2) (1 / 4) = .ok (1 / 2) := by
  obtain ⟨q, hq, _, _, _, h⟩ := C175_put R (by norm_num) hs (by norm_num) (exTimePrice_call R)
  rw [hq, h ⟨3, -1, by norm_num, by norm_num⟩ ⟨1, 0, by norm_num, by norm_num⟩ (by norm_num) (by norm_num),
    R.eq_self ⟨1, -1, by norm_num, by norm_num⟩]
  norm_num

/-- Roundings with these hypotheses exist. -/
example : ∃ rnd : ℝ → ℝ, Rounding 53 rnd ∧ Symmetric rnd :=
  (exists_symmetric (by norm_num)).imp fun _ h => ⟨h.1, h.2.1⟩

/-- The same call with itself. -/
example (R : Rounding 53 rnd) (hs : Symmetric rnd) : ∃ q q', Rounded.putValue rnd (exTimePrice rnd) 1 1 (3 / 2) (1 / 4) = .ok q ∧
    Rounded.putValue rnd (fun _ _ _ _ => .ok 2) 1 1 (3 / 2) (1 / 4) = .ok q' ∧ q ≤ q' := by
  have h0 : ¬ ((1 / 4 : ℝ) = 0 ∨ (1 : ℝ) = 0) := by norm_num
  have h2 : Rounded.callValue rnd (fun _ _ _ _ => .ok 2) 1 1 (3 / 2) (1 / 4) = .ok 2 := if_neg h0
  obtain ⟨q, hq, _⟩ := C175_put R (by norm_num) hs h0 (exTimePrice_call R)
  obtain ⟨q', hq', _⟩ := C175_put R (by norm_num) hs h0 h2
  exact ⟨q, q', hq, hq', C175_put_order R h0 (exTimePrice_call R) h2 hq hq' (by norm_num)⟩

/-- Deltas and gammas of that price, taken as exact. -/
example (R : Rounding 53 rnd) := C175_delta R (by norm_num) (price := exTimePrice rnd) (t := 1) (K := 1) (F := 3 / 2) (v := 1 / 4) (ε := 0) (by norm_num) rfl rfl
  (by rw [sub_self, abs_zero]) (by rw [sub_self, abs_zero])

example (R : Rounding 53 rnd) := C175_gamma R (by norm_num) (price := exTimePrice rnd) (t := 1) (K := 1) (F := 3 / 2) (v := 1 / 4) (ε := 0) (by norm_num) rfl rfl rfl
  (R.float _) (by rw [sub_self, abs_zero]) (by rw [sub_self, abs_zero]) (by rw [sub_self, abs_zero])

example (R : Rounding 53 rnd) := C175_binary R (by norm_num) (inner := exTimePrice rnd) (t := 1) (K := 1) (F := 3 / 2) (v := 1 / 4) (ε := 0) rfl rfl
  (by rw [sub_self, abs_zero]) (by rw [sub_self, abs_zero])

example (R : Rounding 53 rnd) := C175_delta_violated R (price := exTimePrice rnd) (t := 1) (K := 1) (v := 1 / 4) (by norm_num) rfl

example (R : Rounding 53 rnd) := C175_gamma_violated R (t := 1) (v := 1 / 4) (by norm_num)

example (R : Rounding 53 rnd) := C175_binary_violated R 1 (1 / 4) 3

end Dcf
