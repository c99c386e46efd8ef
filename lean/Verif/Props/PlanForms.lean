import Verif.Props.Plans
import Verif.Props.Interpolation
import Verif.Props.Compounding
import Mathlib.Data.Rat.Floor

/-! # C133: numbers of payments that are not whole; C134: documented formulas of plans, rates and interpolation -/

set_option linter.unusedSectionVars false
set_option linter.unusedSimpArgs false
set_option linter.unusedVariables false

namespace Dcf.Plans

variable {K : Type} [Field K] [LinearOrder K] [IsStrictOrderedRing K] [FloorRing K]

/-! ## C133 -/

theorem pyInt_intCast (n : ℤ) : pyInt (n : K) = n := by simp [pyInt]

theorem pyInt_of_nonneg {x : K} (h : 0 ≤ x) : pyInt x = ⌊x⌋ := by simp [pyInt, h]

theorem pyInt_toNat (x : K) : (pyInt x).toNat = ⌊x⌋₊ := by
  rcases le_or_gt 0 x with h | h
  · rw [pyInt_of_nonneg h]; rfl
  · rw [pyInt, if_neg (not_le.2 h), Nat.floor_of_nonpos h.le]
    have : ⌈x⌉ ≤ 0 := Int.ceil_le.2 (by simpa using h.le)
    omega

/-- C133: a whole number given as a float is as good as the integer. -/
theorem C133_whole (n : ℤ) (N r : K) :
    sameNum (n : K) N = same n N ∧ bulletNum (n : K) N = bullet n N ∧ amortizeNum (n : K) N = amortize n N ∧
    annuityNum (n : K) N r = annuity n N r ∧ consumerNum (n : K) N r = consumer n N r := by
  simp [sameNum, bulletNum, amortizeNum, annuityNum, consumerNum, amortize, consumer, pyInt_intCast]

/-- C133: `same` and `bullet` plans use the whole part of the number, and so do annuities; totals are as before. -/
theorem C133_truncated {x : K} (hx : 0 ≤ x) (N r : K) :
    (∃ l, sameNum x N = .ok l ∧ l.length = ⌊x⌋₊ ∧ l.sum = ⌊x⌋₊ * N) ∧
    (1 ≤ x → ∃ l, bulletNum x N = .ok l ∧ l.length = ⌊x⌋₊ ∧ l.sum = N) ∧
    ((1 + r) ^ ⌊x⌋₊ ≠ 1 → ∃ l, annuityNum x N r = .ok l ∧ l.length = ⌊x⌋₊ ∧ l.sum = N) := by
  have h : pyInt x = ((⌊x⌋₊ : ℕ) : ℤ) := by rw [pyInt_of_nonneg hx, Int.natCast_floor_eq_floor hx]
  refine ⟨?_, fun h1 => ?_, fun h1 => ?_⟩
  · obtain ⟨l, h2, h3, h4, _⟩ := C05_same ⌊x⌋₊ N
    exact ⟨l, by rw [sameNum, h, h2], h3, h4⟩
  · obtain ⟨l, h2, h3, h4, _⟩ := C05_bullet ⌊x⌋₊ N (Nat.le_floor (by simpa using h1))
    exact ⟨l, by rw [bulletNum, h, h2], h3, h4⟩
  · obtain ⟨l, h2, h3, h4, _⟩ := (C05_annuity ⌊x⌋₊ N r).2 h1
    exact ⟨l, by rw [annuityNum, h, h2], h3, h4⟩

/-- C133: an `amortize` plan divides by the number itself but pays only the whole number of times. -/
theorem C133_amortize {x : K} (hx : 0 < x) (N : K) :
    ∃ l, amortizeNum x N = .ok l ∧ l.length = ⌊x⌋₊ ∧ (∀ y ∈ l, y = N / x) ∧ l.sum = ⌊x⌋₊ * (N / x) ∧
      (l.sum = N ↔ N = 0 ∨ x = ⌊x⌋₊) := by
  have h0 : (List.replicate ⌊x⌋₊ (N / x)).sum = ⌊x⌋₊ * (N / x) := by simp
  refine ⟨List.replicate ⌊x⌋₊ (N / x), by simp [amortizeNum, pyDiv_ok hx.ne', pyInt_toNat], by simp,
    fun y hy => List.eq_of_mem_replicate hy, h0, ?_⟩
  rw [h0]
  constructor
  · intro h
    by_cases hN : N = 0
    · exact .inl hN
    · refine .inr ?_
      have h2 : (⌊x⌋₊ : K) * N = N * x := by rwa [← mul_div_assoc, div_eq_iff hx.ne'] at h
      exact (mul_left_cancel₀ hN (by rw [← h2]; ring)).symm
  · rintro (rfl | h)
    · simp
    · rw [← h]; field_simp

/-- C133: so does a `consumer` plan: the total is short of `N (1 + x r)` by the fraction. -/
theorem C133_consumer {x : K} (hx : 0 < x) (N r : K) :
    ∃ l, consumerNum x N r = .ok l ∧ l.length = ⌊x⌋₊ ∧ (∀ y ∈ l, y = N * (1 + x * r) / x) ∧
      l.sum = ⌊x⌋₊ * (N * (1 + x * r) / x) ∧ (l.sum = N * (1 + x * r) ↔ N * (1 + x * r) = 0 ∨ x = ⌊x⌋₊) := by
  obtain ⟨l, h1, h2, h3, h4, h5⟩ := C133_amortize hx (N * (1 + x * r))
  refine ⟨l, ?_, h2, h3, h4, h5⟩
  rw [← h1]; rfl

/-- C133: numbers below one: no payment is left, although the division is done; the bullet is still paid, the annuity
divides by zero. -/
theorem C133_below_one {x : K} (hx : 0 < x) (h1 : x < 1) (N r : K) :
    sameNum x N = .ok [] ∧ amortizeNum x N = .ok [] ∧ consumerNum x N r = .ok [] ∧ bulletNum x N = .ok [N] ∧
      annuityNum x N r = .error .zeroDivision := by
  have hf : ⌊x⌋₊ = 0 := Nat.floor_eq_zero.2 h1
  have hi : pyInt x = 0 := by rw [pyInt_of_nonneg hx.le]; exact Int.floor_eq_zero_iff.2 ⟨hx.le, h1⟩
  refine ⟨by simp [sameNum, same, hi], by simp [amortizeNum, pyDiv_ok hx.ne', hi], by simp [consumerNum, pyDiv_ok hx.ne', hi],
    by simp [bulletNum, bullet, hi], ?_⟩
  rw [annuityNum, hi]
  exact (C05_annuity 0 N r).1 (by simp)

/-- C133: negative numbers: empty plans, except for the bullet which is paid once. -/
theorem C133_negative {x : K} (hx : x < 0) (N r : K) :
    sameNum x N = .ok [] ∧ amortizeNum x N = .ok [] ∧ consumerNum x N r = .ok [] ∧ bulletNum x N = .ok [N] := by
  have hi : (pyInt x).toNat = 0 := by rw [pyInt_toNat]; exact Nat.floor_of_nonpos hx.le
  have hj : (pyInt x - 1).toNat = 0 := by omega
  exact ⟨by simp [sameNum, same, hi], by simp [amortizeNum, pyDiv_ok hx.ne, hi], by simp [consumerNum, pyDiv_ok hx.ne, hi],
    by simp [bulletNum, bullet, hj]⟩

/-- C133: the annuity over a negative number of payments is empty too, unless its growth over that number is one or its rate is
minus one: then it divides by zero. -/
theorem C133_negative_annuity {x : K} (hx : x < 0) (N r : K) :
    (1 + r = 0 ∨ (1 + r) ^ ⌊-x⌋₊ = 1 → annuityNum x N r = .error .zeroDivision) ∧
      (¬ (1 + r = 0 ∨ (1 + r) ^ ⌊-x⌋₊ = 1) → annuityNum x N r = .ok []) := by
  have hi : pyInt x = -(⌊-x⌋₊ : ℤ) := by
    rw [pyInt, if_neg (not_le.2 hx), Int.natCast_floor_eq_floor (by linarith), Int.floor_neg, neg_neg]
  have hz : (-(⌊-x⌋₊ : ℤ)).toNat = 0 := by omega
  have hp : (1 + r) ^ (-(⌊-x⌋₊ : ℤ)) = ((1 + r) ^ ⌊-x⌋₊)⁻¹ := by rw [zpow_neg, zpow_natCast]
  rw [annuityNum, hi]
  constructor
  · intro h
    rcases h with h | h
    · rcases Nat.eq_zero_or_pos ⌊-x⌋₊ with h0 | h0
      · simp [annuity, pyIntPow, h0]
      · simp [annuity, pyIntPow, h, h0]
    · by_cases hb : 1 + r = 0 ∧ -(⌊-x⌋₊ : ℤ) < 0
      · simp only [annuity, pyIntPow, if_pos hb, Py.error_bind]
      · simp only [annuity, pyIntPow, if_neg hb, Py.ok_bind, hp, h, inv_one, sub_self, pyDiv_zero, Py.error_bind]
  · intro h
    push Not at h
    simp only [annuity, pyIntPow, h.1, false_and, if_false, Py.ok_bind, hp]
    rw [pyDiv_ok (sub_ne_zero.2 (by simpa using h.2)), Py.ok_bind, hz]
    rfl

example : annuityNum (-5 / 2 : ℚ) 210 (1 / 10) = .ok [] := (C133_negative_annuity (by norm_num) _ _).2 (by
  rw [show ⌊-(-5 / 2 : ℚ)⌋₊ = 2 by rw [Nat.floor_eq_iff] <;> norm_num]; norm_num)
example : annuityNum (-5 / 2 : ℚ) 210 (-1) = .error .zeroDivision := (C133_negative_annuity (by norm_num) _ _).1 (by norm_num)

/-- C133 fails: the payments of an `amortize` plan over two and a half periods are short of the amount by a fifth. -/
theorem C133_total_violated : ∃ (x N : ℚ) (l : List ℚ), 1 ≤ x ∧ amortizeNum x N = .ok l ∧ l = [40, 40] ∧ l.sum ≠ N := by
  refine ⟨5 / 2, 100, [40, 40], by norm_num, by decide +kernel, rfl, by norm_num⟩

example : annuityNum (5 / 2 : ℚ) 210 (1 / 10) = .ok [100, 110] := by decide +kernel
example : consumerNum (5 / 2 : ℚ) 100 (1 / 10) = .ok [50, 50] := by decide +kernel

/-! ## C134 -/

/-- C134: the documented payment `X_i = r / (1 + r)^(n - i) N` is that of the plan (for any one `i`) if and only if
`r (1 + r)^(n - 1) = 1`. -/
theorem C134_annuity (n : ℕ) (N r : K) (hN : N ≠ 0) (hr : 0 < r) (hn : 1 ≤ n) :
    ∃ l, annuity (n : ℤ) N r = .ok l ∧ l.length = n ∧
      ∀ i (h : i < l.length), l[i] = r / (1 + r) ^ (n - (i + 1)) * N ↔ r * (1 + r) ^ (n - 1) = 1 := by
  have hq : (1 : K) < 1 + r := by linarith
  have h1 : (1 + r) ^ n ≠ 1 := (one_lt_pow₀ hq (by omega)).ne'
  refine ⟨_, annuity_eq n N r h1, by simp, fun i h => ?_⟩
  simp only [List.length_map, List.length_range] at h
  simp only [List.getElem_map, List.getElem_range]
  have hp : ∀ k : ℕ, (1 + r) ^ k ≠ 0 := fun k => pow_ne_zero _ (by linarith)
  have h2 : (1 + r) ^ n - 1 ≠ 0 := sub_ne_zero.2 h1
  have e1 : (1 + r) ^ i * (1 + r) ^ (n - (i + 1)) = (1 + r) ^ (n - 1) := by rw [← pow_add]; congr 1; omega
  have e2 : (1 + r) ^ n = (1 + r) * (1 + r) ^ (n - 1) := by rw [← pow_succ']; congr 1; omega
  have hNr : N * r ≠ 0 := mul_ne_zero hN hr.ne'
  have : N * r / ((1 + r) ^ n - 1) * (1 + r) ^ i = r / (1 + r) ^ (n - (i + 1)) * N ↔
      (1 + r) ^ (n - 1) = (1 + r) ^ n - 1 := by
    rw [← e1, div_mul_eq_mul_div, div_mul_eq_mul_div, div_eq_div_iff h2 (hp _)]
    constructor
    · intro h
      exact mul_left_cancel₀ hNr (by linear_combination h)
    · intro h
      linear_combination (N * r) * h
  rw [this, e2]
  constructor <;> intro h <;> linear_combination -h

/-- C134 fails for annuities at the default rate of one percent: the documented payments are those of the plan for no
number of payments. -/
theorem C134_annuity_violated (n : ℕ) (N : ℚ) (hN : N ≠ 0) (hn : 1 ≤ n) :
    ∃ l, annuity (n : ℤ) N (1 / 100) = .ok l ∧ l.length = n ∧
      ∀ i (h : i < l.length), l[i] ≠ (1 / 100) / (1 + 1 / 100) ^ (n - (i + 1)) * N := by
  obtain ⟨l, h1, h2, h3⟩ := C134_annuity n N (1 / 100) hN (by norm_num) hn
  refine ⟨l, h1, h2, fun i h he => ?_⟩
  have h4 := (h3 i h).1 he
  have h5 : ((101 : ℚ) / 100) ^ (n - 1) = 100 := by
    have : (1 + 1 / 100 : ℚ) = 101 / 100 := by norm_num
    rw [this] at h4; linarith
  rw [div_pow, div_eq_iff (by positivity)] at h5
  have h6 : 101 ^ (n - 1) = 100 * 100 ^ (n - 1) := by exact_mod_cast h5
  have h7 : (101 ^ (n - 1)) % 2 = 1 := by rw [Nat.pow_mod]; norm_num
  omega

example : annuity 1 (7 : ℚ) 1 = .ok [7] := by decide +kernel
example : annuity 2 (201 : ℚ) (1 / 100) = .ok [100, 101] := by decide +kernel

end Dcf.Plans

namespace Dcf

/-- C134: the documented simple rate `1 / (df - 1) / τ` is never the one returned. -/
theorem C134_simple_rate (df τ : ℝ) (hd : df ≠ 0) (hτ : τ ≠ 0) :
    ∃ r, simpleRate df τ = .ok r ∧ r = (1 / df - 1) / τ ∧ (df ≠ 1 → r ≠ 1 / (df - 1) * (1 / τ)) := by
  refine ⟨_, by rw [simpleRate, pyDiv_ok hd, Py.ok_bind, pyDiv_ok hτ], rfl, fun h1 he => ?_⟩
  have h2 : df - 1 ≠ 0 := sub_ne_zero.2 h1
  field_simp at he
  nlinarith [sq_nonneg (df - 1), sq_nonneg df, sq_nonneg (df + 1)]

/-- C134: all other functions of rates are as documented. -/
theorem C134_rates (r τ df m : ℝ) :
    (1 + r * τ ≠ 0 → simpleCompounding r τ = .ok (1 / (1 + r * τ))) ∧
    continuousCompounding r τ = .ok (Real.exp (-(r * τ))) ∧
    (0 < df → τ ≠ 0 → continuousRate df τ = .ok (-Real.log df * (1 / τ))) ∧
    (m ≠ 0 → 0 < 1 + r / m → periodicCompounding r τ m = .ok ((1 + r / m) ^ (-(τ * m)))) ∧
    (0 < df → τ * m ≠ 0 → periodicRate df τ m = .ok ((df ^ (-(1 / (τ * m))) - 1) * m)) ∧
    (0 < 1 + r → annuallyCompounding r τ = .ok ((1 + r) ^ (-τ))) ∧
    (0 < 1 + r / 2 → semiCompounding r τ = .ok ((1 + r / 2) ^ (-(τ * 2)))) ∧
    (0 < 1 + r / 4 → quarterlyCompounding r τ = .ok ((1 + r / 4) ^ (-(τ * 4)))) ∧
    (0 < 1 + r / 12 → monthlyCompounding r τ = .ok ((1 + r / 12) ^ (-(τ * 12)))) ∧
    (0 < 1 + r / 365 → dailyCompounding r τ = .ok ((1 + r / 365) ^ (-(τ * 365)))) := by
  have key : ∀ m : ℝ, m ≠ 0 → 0 < 1 + r / m → periodicCompounding r τ m = .ok ((1 + r / m) ^ (-(τ * m))) := by
    intro m hm hb
    rw [periodicCompounding, pyDiv_ok hm, Py.ok_bind, pyPow_ok hb, show -m * τ = -(τ * m) by ring]
  refine ⟨fun h => pyDiv_ok h, by rw [continuousCompounding]; congr 2; ring, fun h h' => ?_, key m, fun h h' => ?_,
    fun h => ?_, key 2 (by norm_num), key 4 (by norm_num), key 12 (by norm_num), key 365 (by norm_num)⟩
  · rw [continuousRate, pyLog_ok h, Py.ok_bind, pyDiv_ok h']; congr 1; ring
  · rw [periodicRate, pyDiv_ok h', Py.ok_bind, pyPow_ok h, Py.ok_bind, neg_div]
  · have := key 1 one_ne_zero (by simpa using h)
    simpa [annuallyCompounding] using this

open Spec

/-- C134: `flat(y)` returns `y` for all arguments. -/
theorem C134_flat {K : Type} [Field K] [LinearOrder K] (y x : K) : flatCall y x = .ok y := by
  simp [flatCall, Pts.new, pyIndex, Pts.update, sortPairs]

/-- C134: the documented value of the linear interpolation between neighbours, `(y_{i+1} - y_i) (x - x_i) / (x_{i+1} - x_i)`,
is the one returned if and only if `y_i = 0`. -/
theorem C134_linear (pts : List (ℝ × ℝ)) (hn : (pts.map Prod.fst).Nodup) (p q : ℝ × ℝ) (hpq : Neighbours pts p q) (x : ℝ)
    (h1 : p.1 ≤ x) (h2 : x ≤ q.1) :
    ∃ f y, Interp.new .linear (pts.map Prod.fst) (pts.map Prod.snd) = .ok f ∧ f.call x = .ok (some y) ∧
      (y = (q.2 - p.2) * ((x - p.1) / (q.1 - p.1)) ↔ p.2 = 0) := by
  have hlen : 2 ≤ pts.length := by
    rcases pts with _ | ⟨a, _ | ⟨b, l⟩⟩
    · exact absurd hpq.1 (by simp)
    · have ha := hpq.1; have hb := hpq.2.1
      simp only [List.mem_singleton] at ha hb
      exact absurd hpq.2.2.1 (by rw [ha, hb]; exact lt_irrefl _)
    · simp
  obtain ⟨f, g, h3, _, h4⟩ := C13_linear pts hn hlen
  refine ⟨f, g x, h3, (h4 x).1, ?_⟩
  rw [(C13_between pts hn x (g x) (h4 x).2 p q hpq h1 h2).1, chord]
  constructor <;> intro h
  · have : (q.2 - p.2) / (q.1 - p.1) * (x - p.1) = (q.2 - p.2) * ((x - p.1) / (q.1 - p.1)) := by ring
    linarith
  · rw [h]; ring

/-- C134: likewise for log-linear interpolation, if and only if `y_i = 1`. -/
theorem C134_loglinear (pts : List (ℝ × ℝ)) (hn : (pts.map Prod.fst).Nodup) (hpos : ∀ p ∈ pts, 0 < p.2) (p q : ℝ × ℝ)
    (hpq : Neighbours pts p q) (x : ℝ) (h1 : p.1 ≤ x) (h2 : x ≤ q.1) :
    ∃ f y, Interp.new .loglinear (pts.map Prod.fst) (pts.map Prod.snd) = .ok f ∧ f.call x = .ok (some y) ∧
      (y = Real.exp ((Real.log q.2 - Real.log p.2) * ((x - p.1) / (q.1 - p.1))) ↔ p.2 = 1) := by
  have hlen : 2 ≤ pts.length := by
    rcases pts with _ | ⟨a, _ | ⟨b, l⟩⟩
    · exact absurd hpq.1 (by simp)
    · have ha := hpq.1; have hb := hpq.2.1
      simp only [List.mem_singleton] at ha hb
      exact absurd hpq.2.2.1 (by rw [ha, hb]; exact lt_irrefl _)
    · simp
  obtain ⟨f, g, h3, _, h4, _⟩ := C16_loglinear pts hn hlen hpos
  refine ⟨f, g x, h3, (h4 x).1, ?_⟩
  have hnb : Neighbours (pts.map fun p => (p.1, Real.log p.2)) (p.1, Real.log p.2) (q.1, Real.log q.2) := by
    refine ⟨List.mem_map.2 ⟨p, hpq.1, rfl⟩, List.mem_map.2 ⟨q, hpq.2.1, rfl⟩, hpq.2.2.1, fun r hr => ?_⟩
    obtain ⟨r', hr', rfl⟩ := List.mem_map.1 hr
    exact hpq.2.2.2 r' hr'
  have h5 := (C13_between _ (by rw [List.map_map]; exact hn) x _ (h4 x).2.2 _ _ hnb h1 h2).1
  have h6 : g x = Real.exp (Real.log p.2 + (Real.log q.2 - Real.log p.2) * ((x - p.1) / (q.1 - p.1))) := by
    rw [← Real.exp_log (h4 x).2.1, h5, chord]; congr 1; simp only []; ring
  rw [h6, Real.exp_eq_exp]
  have h7 := hpos p hpq.1
  constructor <;> intro h
  · exact Real.eq_one_of_pos_of_log_eq_zero h7 (by linarith)
  · rw [h, Real.log_one]; ring

/-- C134 fails for the rate classes: at a node the documented value `(y_i / x_i)^{x_i}` need not be the value given there. -/
theorem C134_rate_violated : ∃ f, Interp.new .logconstantrate [2, 3] [1, 1] = .ok f ∧ f.call 2 = .ok (some 1) ∧
    Real.exp (2 * Real.log (1 / 2)) ≠ 1 := by
  obtain ⟨f, h1, h2⟩ := C11_classes .logconstantrate [(2, 1), (3, 1)] (by simp) (fun _ => by simp)
  refine ⟨f, h1, h2 2 1 (by simp), ?_⟩
  rw [Ne, Real.exp_eq_one_iff]
  have : Real.log (1 / 2) < 0 := Real.log_neg (by norm_num) (by norm_num)
  linarith

example : Neighbours [((0 : ℝ), (1 : ℝ)), (1, 3)] (0, 1) (1, 3) := by
  refine ⟨by simp, by simp, by norm_num, fun r hr => ?_⟩
  simp only [List.mem_cons, List.not_mem_nil, or_false] at hr
  rcases hr with rfl | rfl <;> simp

/-! ### The hypotheses can be met: each theorem applied -/

section
open Plans
example := C133_truncated (show (0 : ℚ) ≤ 5 / 2 by norm_num) 100 (1 / 10)
example := C133_amortize (show (0 : ℚ) < 5 / 2 by norm_num) 100
example := C133_consumer (show (0 : ℚ) < 5 / 2 by norm_num) 100 (1 / 10)
example := C133_below_one (show (0 : ℚ) < 1 / 2 by norm_num) (by norm_num) 100 (1 / 10)
example := C133_negative (show (-5 / 2 : ℚ) < 0 by norm_num) 100 (1 / 10)
example := C134_annuity 5 (100 : ℚ) (1 / 10) (by norm_num) (by norm_num) (by norm_num)
example := C134_annuity_violated 5 100 (by norm_num) (by norm_num)
end
example := C134_simple_rate 0.97 1 (by norm_num) (by norm_num)

end Dcf
