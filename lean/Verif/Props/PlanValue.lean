import Verif.Props.Plans

/-! # What a loan is worth: C116 -/

set_option linter.unusedSectionVars false
set_option linter.unusedSimpArgs false
set_option linter.unusedVariables false

namespace Dcf.Plans

variable {K : Type} [Field K] [LinearOrder K] [IsStrictOrderedRing K]

/-- Principal payments plus interest on the balance, discounted at the interest rate. -/
def loanValue (r : K) (plan balance : List K) : K :=
  (((plan.zip balance).zipIdx).map fun x => (x.1.1 + r * x.1.2) / (1 + r) ^ (x.2 + 1)).sum

theorem loanValue_aux {r : K} (hr : 1 + r ≠ 0) (plan : List K) (N : K) (k : ℕ) :
    (((plan.zip (N :: outstandingLoop (-1) N plan.dropLast)).zipIdx k).map
      fun x => (x.1.1 + r * x.1.2) / (1 + r) ^ (x.2 + 1)).sum = N / (1 + r) ^ k - (N - plan.sum) / (1 + r) ^ (k + plan.length) := by
  induction plan generalizing N k with
  | nil => simp
  | cons x l ih =>
    have e : l.zip (outstandingLoop (-1) N (x :: l).dropLast) = l.zip ((N - x) :: outstandingLoop (-1) (N - x) l.dropLast) := by
      cases l with
      | nil => rfl
      | cons y l => simp [outstandingLoop, sub_eq_add_neg]
    simp only [List.zip_cons_cons, List.zipIdx_cons, List.map_cons, List.sum_cons, e, ih, List.length_cons]
    rw [show k + (l.length + 1) = k + 1 + l.length by ring, pow_succ]
    field_simp
    ring

/-- C116: the payments of a plan with the interest on the outstanding balance, discounted at the interest rate, are worth the amount
less the discounted rest of the amount that the plan does not pay back; hence the amount itself if it is all paid back. -/
theorem C116_loan {r : K} (hr : 1 + r ≠ 0) (plan : List K) (N : K) :
    loanValue r plan (outstanding plan N false) = N - (N - plan.sum) / (1 + r) ^ plan.length ∧
      (plan.sum = N → loanValue r plan (outstanding plan N false) = N) := by
  have h : loanValue r plan (outstanding plan N false) = N - (N - plan.sum) / (1 + r) ^ plan.length := by
    simpa [loanValue, outstanding] using loanValue_aux hr plan N 0
  exact ⟨h, fun e => by rw [h, e]; simp⟩

/-- C116: bullet, amortization and annuity loans are worth the amount lent. -/
theorem C116_plans {r : K} (hr : 1 + r ≠ 0) {n : ℕ} (hn : n ≠ 0) (N : K) :
    (∃ l, bullet (n : ℤ) N = .ok l ∧ loanValue r l (outstanding l N false) = N) ∧
    (∃ l, amortize (n : ℤ) N = .ok l ∧ loanValue r l (outstanding l N false) = N) ∧
    ((1 + r) ^ n ≠ 1 → ∃ l, annuity (n : ℤ) N r = .ok l ∧ loanValue r l (outstanding l N false) = N) := by
  refine ⟨?_, ?_, fun h => ?_⟩
  · obtain ⟨l, hl, -, hs, -⟩ := C05_bullet n N (Nat.one_le_iff_ne_zero.2 hn)
    exact ⟨l, hl, (C116_loan hr l N).2 hs⟩
  · obtain ⟨l, hl, -, hs, -⟩ := (C05_amortize n N).2 hn
    exact ⟨l, hl, (C116_loan hr l N).2 hs⟩
  · obtain ⟨l, hl, -, hs, -⟩ := (C05_annuity n N r).2 h
    exact ⟨l, hl, (C116_loan hr l N).2 hs⟩

theorem constValue_aux {r : K} (hr : 1 + r ≠ 0) (x : K) (n k : ℕ) :
    r * ((((List.replicate n x).zip (List.replicate n (0 : K))).zipIdx k).map
      fun x => (x.1.1 + r * x.1.2) / (1 + r) ^ (x.2 + 1)).sum = x / (1 + r) ^ k - x / (1 + r) ^ (k + n) := by
  induction n generalizing k with
  | zero => simp
  | succ n ih =>
    simp only [List.replicate_succ, List.zip_cons_cons, List.zipIdx_cons, List.map_cons, List.sum_cons, mul_add, ih, mul_zero, add_zero]
    rw [show k + (n + 1) = k + 1 + n by ring, pow_succ]
    field_simp
    ring

/-- C116: a consumer loan costs more than its rate: its payments, which include the interest, discounted at the rate are worth more
than the amount lent as soon as there are two of them. -/
theorem C116_consumer {r : K} (hr : 0 < r) {n : ℕ} (hn : n ≠ 0) {N : K} (hN : 0 < N) :
    ∃ l, consumer (n : ℤ) N r = .ok l ∧ (n = 1 → loanValue r l (l.map fun _ => 0) = N) ∧
      (2 ≤ n → N < loanValue r l (l.map fun _ => 0)) := by
  obtain ⟨l, hl, hlen, -, hx⟩ := (C05_consumer n N r).2 hn
  have hn0 : (0 : K) < n := by exact_mod_cast Nat.pos_of_ne_zero hn
  have hr1 : 1 + r ≠ 0 := by positivity
  obtain rfl : l = List.replicate n (N * (1 + n * r) / n) := List.eq_replicate_iff.2 ⟨hlen, hx⟩
  have h := constValue_aux hr1 (N * (1 + n * r) / n) n 0
  rw [zero_add, pow_zero, div_one] at h
  have e : loanValue r (List.replicate n (N * (1 + n * r) / n)) ((List.replicate n (N * (1 + n * r) / n)).map fun _ => 0) =
      (N * (1 + n * r) / n - N * (1 + n * r) / n / (1 + r) ^ n) / r := by
    rw [eq_div_iff hr.ne', ← h, mul_comm]
    simp [loanValue]
  refine ⟨_, hl, fun h1 => ?_, fun h2 => ?_⟩
  · rw [e, h1]; field_simp; push_cast; ring
  · rw [e]
    have hb : 1 + (n : K) * r < (1 + r) ^ n := by
      obtain ⟨m, rfl⟩ : ∃ m, n = m + 2 := ⟨n - 2, by omega⟩
      have := one_add_mul_le_pow (a := r) (by linarith) (m + 1)
      rw [show m + 2 = m + 1 + 1 from rfl, pow_succ]
      push_cast at *
      have hm : (0 : K) ≤ m := by positivity
      nlinarith [mul_le_mul_of_nonneg_right this (by linarith : (0 : K) ≤ 1 + r), mul_pos hr hr, mul_nonneg hm (mul_pos hr hr).le]
    have hq : 0 < (1 + r) ^ n := by positivity
    rw [lt_div_iff₀ hr, div_div, div_sub_div _ _ hn0.ne' (by positivity), lt_div_iff₀ (by positivity)]
    have : 0 < N * (n : K) * ((1 + r) ^ n - (1 + n * r)) := by
      have := sub_pos.2 hb
      positivity
    nlinarith

example : loanValue (1 / 10 : ℚ) [100, 110] (outstanding [100, 110] 210 false) = 210 := by
  exact (C116_loan (by norm_num) _ _).2 (by norm_num)

example : (1 : ℚ) + 1 / 10 ≠ 0 ∧ (2 : ℕ) ≠ 0 ∧ ((1 : ℚ) + 1 / 10) ^ 2 ≠ 1 ∧ (0 : ℚ) < 1 / 10 := by norm_num

/-! ### The hypotheses can be met: each theorem applied -/

example := C116_plans (show 1 + (1 / 10 : ℚ) ≠ 0 by norm_num) (n := 4) (by norm_num) 100
example := C116_consumer (show 0 < (1 / 10 : ℚ) by norm_num) (n := 4) (by norm_num) (N := 100) (by norm_num)

end Dcf.Plans
