import Verif.Props.RoundedRating
import Verif.Props.RoundedInterp
import Verif.Props.RatingNames

/-! # C185: master scales in floating point arithmetic -/

set_option linter.unusedSectionVars false
set_option linter.unusedSimpArgs false
set_option linter.unusedVariables false

namespace Dcf.Rating

open Spec

variable {p : ℕ} {rnd exp log : ℝ → ℝ}

/-- C185: without rounding this is the exact model. -/
theorem C185_unrounded (n : ℕ) (value : Option ℝ) : floatFromkeys id Real.exp Real.log n value = fromkeysValues n value := by
  have hd : ∀ a b : ℝ, Rounded.div id a b = pyDiv a b := fun a b => by
    simp only [Rounded.div]
    cases pyDiv a b <;> rfl
  have hl : ∀ x, floatLog Real.log x = pyLog x := fun x => rfl
  cases value <;> simp only [floatFromkeys, fromkeysValues, floatFirst, hd, id, hl, Py.ok_bind]

/-- One class value: the exponent and its error. -/
theorem class_near (R : Rounding p rnd) (hp : 4 ≤ p) {l t : ℝ} {i : ℕ} (hi : (i : ℝ) ≤ t) (ht : 0 < t) :
    |rnd (l - rnd (rnd (l * i) / t)) - l * (1 - i / t)| ≤ 6 * (2 : ℝ) ^ (-(p : ℤ)) * |l| := by
  have hu := ulp_le hp
  have hu0 : 0 ≤ (2 : ℝ) ^ (-(p : ℤ)) := by positivity
  have h1 := R.err (by omega) (l * i)
  have h2 := R.err (by omega) (rnd (l * i) / t)
  have h3 := R.err (by omega) (l - rnd (rnd (l * i) / t))
  have s0 : 0 ≤ (i : ℝ) / t := div_nonneg (Nat.cast_nonneg i) ht.le
  have s1 : (i : ℝ) / t ≤ 1 := (div_le_one ht).2 hi
  generalize (2 : ℝ) ^ (-(p : ℤ)) = u at *
  have e1 : l * (i : ℝ) / t = l * (i / t) := by ring
  have hl := abs_nonneg l
  have h4 : |rnd (l * i) / t - l * (i / t)| ≤ u * |l| := by
    rw [← e1, ← sub_div, abs_div, abs_of_pos ht, div_le_iff₀ ht]
    refine h1.trans ?_
    rw [abs_mul, abs_of_nonneg (Nat.cast_nonneg i : (0 : ℝ) ≤ i)]
    have := mul_le_mul_of_nonneg_left hi (mul_nonneg hu0 hl)
    linarith
  have h5 : |l * (i / t)| ≤ |l| := by
    rw [abs_mul, abs_of_nonneg s0]
    exact mul_le_of_le_one_right hl s1
  have h6 : |rnd (l * i) / t| ≤ (1 + u) * |l| := by
    have := abs_sub_abs_le_abs_sub (rnd (l * i) / t) (l * (i / t))
    linarith
  have h7 := mul_le_mul_of_nonneg_left h6 hu0
  have h8 : |rnd (rnd (l * i) / t) - l * (i / t)| ≤ (2 * u + u * u) * |l| := by
    have := abs_sub_le (rnd (rnd (l * i) / t)) (rnd (l * i) / t) (l * (i / t))
    linarith
  have h9 : |l - rnd (rnd (l * i) / t)| ≤ (1 + (2 * u + u * u)) * |l| := by
    have e : l - rnd (rnd (l * i) / t) = l * (1 - i / t) - (rnd (rnd (l * i) / t) - l * (i / t)) := by ring
    have h10 : |l * (1 - i / t)| ≤ |l| := by
      rw [abs_mul, abs_of_nonneg (by linarith : 0 ≤ 1 - (i : ℝ) / t)]
      exact mul_le_of_le_one_right hl (by linarith)
    rw [e]
    have := abs_sub (l * (1 - i / t)) (rnd (rnd (l * i) / t) - l * (i / t))
    linarith
  have h10 := mul_le_mul_of_nonneg_left h9 hu0
  have h11 := abs_sub_le (rnd (l - rnd (rnd (l * i) / t))) (l - rnd (rnd (l * i) / t)) (l * (1 - i / t))
  have h12 : |l - rnd (rnd (l * i) / t) - l * (1 - i / t)| ≤ (2 * u + u * u) * |l| := by
    rw [← abs_neg]; refine le_trans (le_of_eq ?_) h8; congr 1; ring
  have h13 : (u * (1 + (2 * u + u * u)) + (2 * u + u * u)) * |l| ≤ 6 * u * |l| := by
    refine mul_le_mul_of_nonneg_right ?_ hl
    nlinarith [mul_le_mul_of_nonneg_left hu hu0, mul_le_mul_of_nonneg_left hu (mul_nonneg hu0 hu0)]
  linarith

theorem fromkeys_eq {n : ℕ} (hn : 2 ≤ n) {x : ℝ} (hx : 0 < x) (value : Option ℝ) (hv : floatFirst rnd exp log n value = x) :
    floatFromkeys rnd exp log n value = .ok ((List.range n).map fun i : ℕ => exp (rnd (log x - rnd (rnd (log x * (i : ℝ)) / ((n : ℝ) - 1))))) := by
  have h2 : (2 : ℝ) ≤ n := by exact_mod_cast hn
  unfold floatFromkeys
  refine pyMap_ok fun i _ => ?_
  simp only [hv, floatLog, if_pos hx, Py.ok_bind, Rounded.div, pyDiv_ok (by linarith : (n : ℝ) - 1 ≠ 0), Py.map_ok]

/-- C185: the classes of a scale with a given first value, up to a relative error. -/
theorem C185_values (R : Rounding p rnd) (hp : 4 ≤ p) {v w : ℝ} (hexp : ∀ x, |exp x - Real.exp x| ≤ v * Real.exp x)
    (hlog : ∀ y, 0 < y → |log y - Real.log y| ≤ w * |Real.log y|) {n : ℕ} (hn : 2 ≤ n) {value : ℝ} (hv : 0 < value) :
    ∃ l, floatFromkeys rnd exp log n (some value) = .ok l ∧ l.length = n ∧ ∀ (i : ℕ) (y : ℝ), l[i]? = some y →
      |y - value ^ (1 - (i : ℝ) / ((n : ℝ) - 1))| ≤
        ((1 + v) * Real.exp ((w + 6 * (2 : ℝ) ^ (-(p : ℤ)) * (1 + w)) * |Real.log value|) - 1) * value ^ (1 - (i : ℝ) / ((n : ℝ) - 1)) := by
  have h2 : (2 : ℝ) ≤ n := by exact_mod_cast hn
  refine ⟨_, fromkeys_eq hn hv _ rfl, by simp, ?_⟩
  intro i y hy
  rw [List.getElem?_map, Option.map_eq_some_iff] at hy
  obtain ⟨j, hj, rfl⟩ := hy
  have hi : i < n ∧ i = j := by
    rw [List.getElem?_eq_some_iff] at hj
    obtain ⟨h, e⟩ := hj
    simpa using ⟨(by simpa using h : i < n), (by simpa using e : i = j)⟩
  obtain ⟨hi, rfl⟩ := hi
  have hi' : (i : ℝ) ≤ (n : ℝ) - 1 := by
    have : (i : ℝ) + 1 ≤ n := by exact_mod_cast hi
    linarith
  have e : value ^ (1 - (i : ℝ) / ((n : ℝ) - 1)) = Real.exp (Real.log value * (1 - i / ((n : ℝ) - 1))) := Real.rpow_def_of_pos hv _
  rw [e]
  refine exp_err hexp ?_
  have h3 := class_near R hp (l := log value) hi' (by linarith)
  have h4 := hlog value hv
  have h5 := abs_le_scaled h4
  have h6 := mul_le_mul_of_nonneg_left h5 (by positivity : 0 ≤ 6 * (2 : ℝ) ^ (-(p : ℤ)))
  have s0 : 0 ≤ (i : ℝ) / ((n : ℝ) - 1) := div_nonneg (Nat.cast_nonneg i) (by linarith)
  have s1 : (i : ℝ) / ((n : ℝ) - 1) ≤ 1 := (div_le_one (by linarith)).2 hi'
  have h7 : |log value * (1 - i / ((n : ℝ) - 1)) - Real.log value * (1 - i / ((n : ℝ) - 1))| ≤ w * |Real.log value| := by
    rw [← sub_mul, abs_mul, abs_of_nonneg (by linarith : 0 ≤ 1 - (i : ℝ) / ((n : ℝ) - 1))]
    exact (mul_le_of_le_one_right (abs_nonneg _) (by linarith)).trans h4
  have h8 := abs_sub_le (rnd (log value - rnd (rnd (log value * i) / ((n : ℝ) - 1)))) (log value * (1 - i / ((n : ℝ) - 1))) (Real.log value * (1 - i / ((n : ℝ) - 1)))
  linarith

/-! ### The default scale -/

theorem round7_near {y : ℝ} {j : ℕ} (hj : j ≤ 7) (h : |y - (10 : ℝ) ^ (-(j : ℤ))| < 1 / 20000000) : round7 y = (10 : ℝ) ^ (-(j : ℤ)) := by
  have e : (10 : ℝ) ^ (-(j : ℤ)) * 10000000 = ((10 ^ (7 - j) : ℤ) : ℝ) := by
    rw [zpow_neg, zpow_natCast]
    have h : (10000000 : ℝ) = 10 ^ j * 10 ^ (7 - j) := by rw [← pow_add, Nat.add_sub_cancel' hj]; norm_num
    rw [h, inv_mul_cancel_left₀ (by positivity)]
    push_cast; rfl
  have h1 := abs_roundHalfEven_sub (y * 10000000)
  have h2 : roundHalfEven (y * 10000000) = (10 ^ (7 - j) : ℤ) := by
    generalize (10 ^ (7 - j) : ℤ) = m at e
    generalize roundHalfEven (y * 10000000) = k at *
    rw [abs_lt] at h
    rw [abs_le] at h1
    have a1 : (k : ℝ) < m + 1 := by rw [← e]; linarith
    have a2 : (m : ℝ) < k + 1 := by rw [← e]; linarith
    have b1 : k < m + 1 := by exact_mod_cast a1
    have b2 : m < k + 1 := by exact_mod_cast a2
    omega
  rw [round7, h2, ← e]; ring

/-- The exponents of the default scale. -/
theorem default_near (R : Rounding 53 rnd) {v w : ℝ} (hexp : ∀ x, |exp x - Real.exp x| ≤ v * Real.exp x) (hv : v ≤ 0.000000000000001)
    (hlog : ∀ y, 0 < y → |log y - Real.log y| ≤ w * |Real.log y|) (hw : w ≤ 0.000000000000001) {n : ℕ} (hn : 2 ≤ n) (hn' : n ≤ 100000) :
    0 < floatFirst rnd exp log n none ∧ ∀ i : ℕ, i < n →
      |exp (rnd (log (floatFirst rnd exp log n none) - rnd (rnd (log (floatFirst rnd exp log n none) * (i : ℝ)) / ((n : ℝ) - 1)))) - (10 : ℝ) ^ (-((n - 1 - i : ℕ) : ℤ))| ≤
        0.000000001 * (10 : ℝ) ^ (-((n - 1 - i : ℕ) : ℤ)) := by
  have h2 : (2 : ℝ) ≤ n := by exact_mod_cast hn
  have h2' : (n : ℝ) ≤ 100000 := by exact_mod_cast hn'
  have hv0 : 0 ≤ v := by
    have := (abs_nonneg _).trans (hexp 0)
    simpa using this
  have hw0 : 0 ≤ w := by
    have h3 := hlog (Real.exp 1) (Real.exp_pos 1)
    rw [Real.log_exp, abs_one, mul_one] at h3
    exact (abs_nonneg _).trans h3
  have hu : (2 : ℝ) ^ (-((53 : ℕ) : ℤ)) ≤ 0.00000000000000012 := by norm_num
  have hu0 : 0 ≤ (2 : ℝ) ^ (-((53 : ℕ) : ℤ)) := by positivity
  have l10 : 0 < Real.log 10 := Real.log_pos (by norm_num)
  have l10' : Real.log 10 ≤ 2.8 := by
    have h3 : Real.log 10 ≤ Real.log ((2 : ℝ) ^ 4) := Real.log_le_log (by norm_num) (by norm_num)
    rw [Real.log_pow] at h3
    have := Real.log_two_lt_d9
    push_cast at h3
    linarith
  -- the first exponent
  have g1 : |-((n : ℝ) - 1) * log 10 - -((n : ℝ) - 1) * Real.log 10| ≤ w * |-((n : ℝ) - 1) * Real.log 10| := by
    rw [← mul_sub, abs_mul, abs_mul]
    have := mul_le_mul_of_nonneg_left (hlog 10 (by norm_num)) (abs_nonneg (-((n : ℝ) - 1)))
    linarith
  have g2 := R.err (by norm_num) (-((n : ℝ) - 1) * log 10)
  have g3 := abs_le_scaled g1
  have g4 := abs_sub_le (rnd (-((n : ℝ) - 1) * log 10)) (-((n : ℝ) - 1) * log 10) (-((n : ℝ) - 1) * Real.log 10)
  have hL : |-((n : ℝ) - 1) * Real.log 10| ≤ 280000 := by
    rw [abs_mul, abs_neg, abs_of_nonneg (by linarith : 0 ≤ (n : ℝ) - 1), abs_of_pos l10]
    have := mul_le_mul (by linarith : (n : ℝ) - 1 ≤ 100000) l10' l10.le (by norm_num)
    linarith
  have g5 : |rnd (-((n : ℝ) - 1) * log 10) - -((n : ℝ) - 1) * Real.log 10| ≤ 0.00000000035 := by
    have a1 := mul_le_mul_of_nonneg_left g3 hu0
    have a2 : (2 : ℝ) ^ (-((53 : ℕ) : ℤ)) * ((1 + w) * |-((n : ℝ) - 1) * Real.log 10|) ≤ 0.00000000000000012 * (1.01 * 280000) :=
      mul_le_mul hu (mul_le_mul (by linarith) hL (abs_nonneg _) (by norm_num)) (mul_nonneg (by linarith) (abs_nonneg _)) (by norm_num)
    have a3 : w * |-((n : ℝ) - 1) * Real.log 10| ≤ 0.000000000000001 * 280000 := mul_le_mul hw hL (abs_nonneg _) (by norm_num)
    exact (g4.trans (add_le_add (g2.trans (a1.trans a2)) (g1.trans a3))).trans (by norm_num)
  have hfirst : floatFirst rnd exp log n none = exp (rnd (-((n : ℝ) - 1) * log 10)) := rfl
  rw [hfirst]
  have hLr : Real.log 10 * -((n : ℝ) - 1) = -((n : ℝ) - 1) * Real.log 10 := by ring
  generalize hL0 : -((n : ℝ) - 1) * Real.log 10 = L at *
  generalize rnd (-((n : ℝ) - 1) * log 10) = e at *
  have k1 := hexp e
  have kE := Real.exp_pos e
  have hx0 : 0 < exp e := by
    have := (abs_le.1 k1).1
    have h3 := mul_le_mul_of_nonneg_right hv kE.le
    nlinarith
  have k2 := log_near hx0 kE (by linarith) k1
  rw [Real.log_exp] at k2
  generalize exp e = x at *
  refine ⟨hx0, ?_⟩
  intro i hi
  have hi' : (i : ℝ) ≤ (n : ℝ) - 1 := by
    have : (i : ℝ) + 1 ≤ n := by exact_mod_cast hi
    linarith
  have k3 : |Real.log x - L| ≤ 0.000000000351 := by
    have := abs_sub_le (Real.log x) e L
    linarith
  have k4 : |Real.log x| ≤ 280001 := by
    have := abs_sub_abs_le_abs_sub (Real.log x) L
    linarith
  have k5 := hlog x hx0
  have k6 : |log x - L| ≤ 0.00000000064 := by
    have a1 : w * |Real.log x| ≤ 0.000000000000001 * 280001 := mul_le_mul hw k4 (abs_nonneg _) (by norm_num)
    have := abs_sub_le (log x) (Real.log x) L
    linarith
  have k7 : |log x| ≤ 280001 := by
    have := abs_sub_abs_le_abs_sub (log x) L
    linarith
  have k8 := class_near R (by norm_num) (l := log x) hi' (by linarith)
  have s0 : 0 ≤ (i : ℝ) / ((n : ℝ) - 1) := div_nonneg (Nat.cast_nonneg i) (by linarith)
  have s1 : (i : ℝ) / ((n : ℝ) - 1) ≤ 1 := (div_le_one (by linarith)).2 hi'
  have k9 : |log x * (1 - i / ((n : ℝ) - 1)) - L * (1 - i / ((n : ℝ) - 1))| ≤ 0.00000000064 := by
    rw [← sub_mul, abs_mul, abs_of_nonneg (by linarith : 0 ≤ 1 - (i : ℝ) / ((n : ℝ) - 1))]
    exact (mul_le_of_le_one_right (abs_nonneg _) (by linarith)).trans k6
  have k10 : |rnd (log x - rnd (rnd (log x * i) / ((n : ℝ) - 1))) - L * (1 - i / ((n : ℝ) - 1))| ≤ 0.0000000009 := by
    have a1 : 6 * (2 : ℝ) ^ (-((53 : ℕ) : ℤ)) * |log x| ≤ 6 * 0.00000000000000012 * 280001 := mul_le_mul (by linarith) k7 (abs_nonneg _) (by norm_num)
    have := abs_sub_le (rnd (log x - rnd (rnd (log x * i) / ((n : ℝ) - 1)))) (log x * (1 - i / ((n : ℝ) - 1))) (L * (1 - i / ((n : ℝ) - 1)))
    linarith
  have ep : (10 : ℝ) ^ (-((n - 1 - i : ℕ) : ℤ)) = Real.exp (L * (1 - i / ((n : ℝ) - 1))) := by
    have hn1 : (n : ℝ) - 1 ≠ 0 := by linarith
    have c1 : ((n - 1 - i : ℕ) : ℝ) = (n : ℝ) - 1 - i := by
      rw [Nat.cast_sub (by omega), Nat.cast_sub (by omega)]; push_cast; ring
    have c2 : L * (1 - i / ((n : ℝ) - 1)) = Real.log 10 * -((n - 1 - i : ℕ) : ℝ) := by
      rw [c1, ← hL0]; field_simp
    rw [c2, ← Real.rpow_def_of_pos (by norm_num), ← Real.rpow_intCast]
    push_cast; rfl
  rw [ep]
  refine (exp_err hexp k10).trans (mul_le_mul_of_nonneg_right ?_ (Real.exp_pos _).le)
  have q1 : Real.exp 0.0000000009 ≤ 1.00000000095 := by
    have := Real.abs_exp_sub_one_sub_id_le (x := 0.0000000009) (by norm_num [abs_of_pos])
    have := (abs_le.1 this).2
    norm_num at this ⊢
    linarith
  have q2 : (1 + v) * Real.exp 0.0000000009 ≤ (1 + 0.000000000000001) * 1.00000000095 := mul_le_mul (by linarith) q1 (Real.exp_pos _).le (by norm_num)
  norm_num at q2 ⊢
  linarith

/-- C185: the default scale rounded to seven digits is that of the powers of ten, for `exp` and `log` with an error of some units in the last place; classes from 10^-8 on are zero. -/
theorem C185_digits (R : Rounding 53 rnd) {v w : ℝ} (hexp : ∀ x, |exp x - Real.exp x| ≤ v * Real.exp x) (hv : v ≤ 0.000000000000001)
    (hlog : ∀ y, 0 < y → |log y - Real.log y| ≤ w * |Real.log y|) (hw : w ≤ 0.000000000000001) {n : ℕ} (hn : 2 ≤ n) (hn' : n ≤ 100000) :
    ∃ l, floatFromkeys rnd exp log n none = .ok l ∧
      l.map (floatRound7 rnd) = (List.range n).map (fun i => if n - 1 - i ≤ 7 then rnd ((10 : ℝ) ^ (-((n - 1 - i : ℕ) : ℤ))) else 0) ∧
      ∀ (i : ℕ) (y : ℝ), l[i]? = some y → |y - (10 : ℝ) ^ (-((n - 1 - i : ℕ) : ℤ))| ≤ 0.000000001 * (10 : ℝ) ^ (-((n - 1 - i : ℕ) : ℤ)) := by
  obtain ⟨h0, h1⟩ := default_near R hexp hv hlog hw hn hn'
  refine ⟨_, fromkeys_eq hn h0 none rfl, ?_, ?_⟩
  · rw [List.map_map]
    refine List.map_congr_left fun i hi => ?_
    rw [List.mem_range] at hi
    have h2 := h1 i hi
    simp only [Function.comp_def]
    generalize exp (rnd (log (floatFirst rnd exp log n none) - rnd (rnd (log (floatFirst rnd exp log n none) * (i : ℝ)) / ((n : ℝ) - 1)))) = y at *
    generalize n - 1 - i = j at *
    have hP : 0 < (10 : ℝ) ^ (-(j : ℤ)) := by positivity
    split_ifs with hj
    · have hP1 : (10 : ℝ) ^ (-(j : ℤ)) ≤ 1 := by
        rw [zpow_neg, zpow_natCast]; exact inv_le_one_of_one_le₀ (one_le_pow₀ (by norm_num))
      rw [floatRound7, round7_near hj (lt_of_le_of_lt h2 (by linarith))]
    · have hP1 : (10 : ℝ) ^ (-(j : ℤ)) ≤ 0.00000001 := by
        have h3 : (10 : ℝ) ^ (-(j : ℤ)) ≤ (10 : ℝ) ^ (-8 : ℤ) := zpow_le_zpow_right₀ (by norm_num) (by omega)
        norm_num at h3 ⊢; exact h3
      obtain ⟨h3, h4⟩ := abs_le.1 h2
      rw [floatRound7, round7_small (by linarith) (by linarith), R.zero]
  · intro i y hy
    rw [List.getElem?_map, Option.map_eq_some_iff] at hy
    obtain ⟨j, hj, rfl⟩ := hy
    have hi : i < n ∧ i = j := by
      rw [List.getElem?_eq_some_iff] at hj
      obtain ⟨h, e⟩ := hj
      exact ⟨(by simpa using h), (by simpa using e)⟩
    obtain ⟨hi, rfl⟩ := hi
    exact h1 i hi

/-- C185: with up to nine names in the default scale a rating given by its name has weight one for that class and zero for all others. -/
theorem C185_named (R : Rounding 53 rnd) {v w : ℝ} (hexp : ∀ x, |exp x - Real.exp x| ≤ v * Real.exp x) (hv : v ≤ 0.000000000000001)
    (hlog : ∀ y, 0 < y → |log y - Real.log y| ≤ w * |Real.log y|) (hw : w ≤ 0.000000000000001) {n : ℕ} (hn : 2 ≤ n) (hn' : n ≤ 9) (sloppy : Bool) :
    ∃ l, floatFromkeys rnd exp log n none = .ok l ∧ l.length = n ∧ ∀ (i : ℕ) (y : ℝ), l[i]? = some y →
      ∃ x, floatVector rnd sloppy l y = .ok x ∧ x.length = n ∧ x[i]? = some 1 ∧ ∀ j, j < n → j ≠ i → x[j]? = some 0 := by
  obtain ⟨l, h1, h2, -⟩ := C185_digits R hexp hv hlog hw hn (by omega)
  have hlen : l.length = n := by
    have := congrArg List.length h2
    simpa using this
  refine ⟨l, h1, hlen, ?_⟩
  intro i y hy
  have hpos : ∀ b : ℕ, 15 / 16 * (10 : ℝ) ^ (-(b : ℤ)) ≤ rnd ((10 : ℝ) ^ (-(b : ℤ))) ∧ rnd ((10 : ℝ) ^ (-(b : ℤ))) ≤ 17 / 16 * (10 : ℝ) ^ (-(b : ℤ)) := by
    intro b
    have e2 := R.err (by norm_num) ((10 : ℝ) ^ (-(b : ℤ)))
    have p2 : 0 < (10 : ℝ) ^ (-(b : ℤ)) := by positivity
    rw [abs_of_pos p2] at e2
    have hu : (2 : ℝ) ^ (-((53 : ℕ) : ℤ)) ≤ 1 / 16 := by norm_num
    have c2 := abs_le.1 (e2.trans (mul_le_mul_of_nonneg_right hu p2.le))
    constructor <;> linarith
  have hlt : ∀ a b : ℕ, b < a → b ≤ 7 → (if a ≤ 7 then rnd ((10 : ℝ) ^ (-(a : ℤ))) else 0) < if b ≤ 7 then rnd ((10 : ℝ) ^ (-(b : ℤ))) else 0 := by
    intro a b hab hb
    have p1 : 0 < (10 : ℝ) ^ (-(a : ℤ)) := by positivity
    have p2 : 0 < (10 : ℝ) ^ (-(b : ℤ)) := by positivity
    have p3 : (10 : ℝ) ^ (-(a : ℤ)) ≤ (10 : ℝ) ^ (-(b : ℤ)) / 10 := by
      have h3 : (10 : ℝ) ^ (-(a : ℤ)) ≤ (10 : ℝ) ^ (-(b : ℤ) - 1) := zpow_le_zpow_right₀ (by norm_num) (by omega)
      rwa [zpow_sub_one₀ (by norm_num), ← div_eq_mul_inv] at h3
    have q1 := hpos a
    have q2 := hpos b
    rw [if_pos hb]
    split_ifs <;> linarith
  have hstrict : (l.map (floatRound7 rnd)).Pairwise (· < ·) := by
    rw [h2, List.pairwise_map]
    refine List.Pairwise.imp_of_mem ?_ List.pairwise_lt_range
    intro a b ha hb hab
    rw [List.mem_range] at ha hb
    exact hlt _ _ (by omega) (by omega)
  have hsort : floatScale rnd l = l.map (floatRound7 rnd) := (hstrict.imp fun h => le_of_lt h).insertionSort_eq
  have hle : (floatScale rnd l).Pairwise (· ≤ ·) := by rw [hsort]; exact hstrict.imp fun h => le_of_lt h
  have hne : floatScale rnd l ≠ [] := by
    intro h
    have := congrArg List.length h
    rw [hsort] at this
    simp [hlen] at this
    omega
  have hsl : (floatScale rnd l).length = n := by rw [hsort, List.length_map, hlen]
  have hil : i < l.length := by
    rw [List.getElem?_eq_some_iff] at hy
    exact hy.1
  have hym : floatRound7 rnd y ∈ floatScale rnd l := by
    rw [hsort]; exact List.mem_map_of_mem (List.mem_of_getElem? hy)
  have hlohi : (floatScale rnd l).head hne < (floatScale rnd l).getLast hne := by
    rw [List.head_eq_getElem, List.getLast_eq_getElem]
    have hs : (floatScale rnd l).Pairwise (· < ·) := hsort ▸ hstrict
    exact List.pairwise_iff_getElem.1 hs _ _ _ _ (by omega)
  have hmin : (floatScale rnd l).head hne ≤ floatRound7 rnd y := by
    obtain ⟨k, hk, e⟩ := List.getElem_of_mem hym
    rw [List.head_eq_getElem, ← e]
    rcases Nat.eq_zero_or_pos k with rfl | h
    · rfl
    · exact List.pairwise_iff_getElem.1 hle _ _ _ _ h
  have hmax : floatRound7 rnd y ≤ (floatScale rnd l).getLast hne := by
    obtain ⟨k, hk, e⟩ := List.getElem_of_mem hym
    rw [List.getLast_eq_getElem, ← e]
    rcases Nat.lt_or_ge k ((floatScale rnd l).length - 1) with h | h
    · exact List.pairwise_iff_getElem.1 hle _ _ _ _ h
    · have : k = (floatScale rnd l).length - 1 := by omega
      simp only [this]; rfl
  obtain ⟨x, a1, a2, -, -, -, a3⟩ := C183_weights R (by norm_num) sloppy l y _ _ (pyMin_sorted hne hle) (pyMax_sorted hne hle) hlohi hmin hmax
  obtain ⟨k, b1, b2, b3⟩ := a3 hym
  have hki : k = i := by
    have hs : (floatScale rnd l).Nodup := by rw [hsort]; exact hstrict.imp fun h => ne_of_lt h
    rw [hsort] at b1 hs
    have b1' : (l.map (floatRound7 rnd))[i]? = some (floatRound7 rnd y) := by rw [List.getElem?_map, hy]; rfl
    rw [List.getElem?_eq_some_iff] at b1 b1'
    obtain ⟨c1, c2⟩ := b1
    obtain ⟨d1, d2⟩ := b1'
    exact hs.getElem_inj_iff.1 (c2.trans d2.symm)
  subst hki
  refine ⟨x, a1, a2.trans hlen, b2, ?_⟩
  intro j hj hjk
  have hj' : j < x.length := by rw [a2, hlen]; exact hj
  rw [List.getElem?_eq_getElem hj', b3 j hj' hjk]

/-- C185: from ten names on (`MASTER_SCALE` has ten) the first two classes have different values and the same weights. -/
theorem C185_ten_violated (R : Rounding 53 rnd) {v w : ℝ} (hexp : ∀ x, |exp x - Real.exp x| ≤ v * Real.exp x) (hv : v ≤ 0.000000000000001)
    (hlog : ∀ y, 0 < y → |log y - Real.log y| ≤ w * |Real.log y|) (hw : w ≤ 0.000000000000001) {n : ℕ} (hn : 10 ≤ n) (hn' : n ≤ 100000) (sloppy : Bool) :
    ∃ l a b, floatFromkeys rnd exp log n none = .ok l ∧ l[0]? = some a ∧ l[1]? = some b ∧ a < b ∧ floatVector rnd sloppy l a = floatVector rnd sloppy l b := by
  obtain ⟨l, h1, h2, h3⟩ := C185_digits R hexp hv hlog hw (by omega : 2 ≤ n) hn'
  have hlen : l.length = n := by
    have := congrArg List.length h2
    simpa using this
  have e0 : l[0]? = some l[0] := List.getElem?_eq_getElem _
  have e1 : l[1]? = some l[1] := List.getElem?_eq_getElem _
  refine ⟨l, l[0], l[1], h1, e0, e1, ?_, ?_⟩
  · have a0 := (abs_le.1 (h3 0 _ e0)).2
    have a1 := (abs_le.1 (h3 1 _ e1)).1
    have p3 : (10 : ℝ) ^ (-((n - 1 - 0 : ℕ) : ℤ)) = (10 : ℝ) ^ (-((n - 1 - 1 : ℕ) : ℤ)) / 10 := by
      rw [div_eq_mul_inv, ← zpow_sub_one₀ (by norm_num)]
      congr 1; omega
    have p2 : 0 < (10 : ℝ) ^ (-((n - 1 - 1 : ℕ) : ℤ)) := by positivity
    rw [p3] at a0
    linarith
  · have z : ∀ i (hi : i < l.length), i ≤ 1 → floatRound7 rnd l[i] = 0 := by
      intro i hi hi1
      have h4 := congrArg (fun t => t[i]?) h2
      simp only [List.getElem?_map, List.getElem?_eq_getElem hi, List.getElem?_range (by omega : i < n), Option.map_some] at h4
      rw [if_neg (by omega)] at h4
      exact Option.some.inj h4
    simp only [floatVector, z 0 (by omega) (by omega), z 1 (by omega) (by omega)]

/-! ### Examples -/

example (R : Rounding 53 rnd) := C185_ten_violated R exact_exp (by norm_num) exact_log (by norm_num) (n := 10) (by norm_num) (by norm_num) false

example := C185_unrounded 10 none

example (R : Rounding 53 rnd) := C185_values R (by norm_num) exact_exp exact_log (n := 10) (by norm_num) (value := 0.0001) (by norm_num)

/-- The scale `MASTER_SCALE` of ten names. -/
example (R : Rounding 53 rnd) := C185_digits R exact_exp (by norm_num) exact_log (by norm_num) (n := 10) (by norm_num) (by norm_num)

/-- The scale `SHORT_MASTER_SCALE` of four names. -/
example (R : Rounding 53 rnd) := C185_named R exact_exp (by norm_num) exact_log (by norm_num) (n := 4) (by norm_num) (by norm_num) false

end Dcf.Rating
