import Verif.Model.Plans
import Verif.Lemmas.Py
import Mathlib.Algebra.BigOperators.Ring.List
import Mathlib.Algebra.BigOperators.Intervals
import Mathlib.Tactic.FieldSimp
import Mathlib.Tactic.LinearCombination

/-! # Payment plans: properties C05-C07 -/

set_option linter.unusedSectionVars false

namespace Dcf.Plans

variable {K : Type} [Field K] [LinearOrder K] [IsStrictOrderedRing K]

/-! ## C05: number and total of payments -/

omit [LinearOrder K] [IsStrictOrderedRing K] in
/-- C05 (same). -/
theorem C05_same (n : ℕ) (N : K) :
    ∃ l, same (n : ℤ) N = .ok l ∧ l.length = n ∧ l.sum = n * N ∧ ∀ x ∈ l, x = N :=
  ⟨_, rfl, by simp, by simp, fun x hx => List.eq_of_mem_replicate hx⟩

omit [LinearOrder K] [IsStrictOrderedRing K] in
/-- C05 (bullet): all but the last of the `n ≥ 1` payments are zero. -/
theorem C05_bullet (n : ℕ) (N : K) (hn : 1 ≤ n) :
    ∃ l, bullet (n : ℤ) N = .ok l ∧ l.length = n ∧ l.sum = N ∧
      ∀ i (h : i < l.length), l[i] = if i + 1 = n then N else 0 := by
  have h1 : ((n : ℤ) - 1).toNat = n - 1 := by omega
  refine ⟨_, rfl, by simp [h1]; omega, by simp, fun i h => ?_⟩
  simp only [h1] at h ⊢
  rw [List.getElem_append]
  simp only [List.length_append, List.length_replicate, List.length_cons, List.length_nil] at h
  split
  · rw [List.getElem_replicate, if_neg]; simp_all; omega
  · rw [if_pos]
    · simp
    · simp_all; omega

omit [LinearOrder K] [IsStrictOrderedRing K] in
/-- C05 (bullet, degenerate): a bullet plan of no payments still has one payment. -/
theorem C05_bullet_empty (n : ℤ) (N : K) (hn : n ≤ 0) : bullet n N = .ok [N] := by
  have h : (n - 1).toNat = 0 := by omega
  simp [bullet, h]

/-- C05 (amortize). -/
theorem C05_amortize (n : ℕ) (N : K) :
    (n = 0 → amortize (n : ℤ) N = .error .zeroDivision) ∧
    (n ≠ 0 → ∃ l, amortize (n : ℤ) N = .ok l ∧ l.length = n ∧ l.sum = N ∧
      ∀ x ∈ l, x = N / n) := by
  refine ⟨fun h => by simp [amortize, h], fun h => ?_⟩
  have hn : ((n : ℤ) : K) ≠ 0 := by simpa using h
  have hn' : (n : K) ≠ 0 := by simpa using h
  refine ⟨List.replicate n (N / n), by simp [amortize, pyDiv_ok, hn'], by simp, ?_, fun x hx =>
    List.eq_of_mem_replicate hx⟩
  simp; field_simp

/-- C05 (consumer): the total is `N (1 + n r)`. -/
theorem C05_consumer (n : ℕ) (N r : K) :
    (n = 0 → consumer (n : ℤ) N r = .error .zeroDivision) ∧
    (n ≠ 0 → ∃ l, consumer (n : ℤ) N r = .ok l ∧ l.length = n ∧ l.sum = N * (1 + n * r) ∧
      ∀ x ∈ l, x = N * (1 + n * r) / n) := by
  refine ⟨fun h => by simp [consumer, h], fun h => ?_⟩
  have hn' : (n : K) ≠ 0 := by simpa using h
  refine ⟨List.replicate n (N * (1 + n * r) / n), by simp [consumer, pyDiv_ok, hn'], by simp, ?_,
    fun x hx => List.eq_of_mem_replicate hx⟩
  simp; field_simp

theorem annuity_eq (n : ℕ) (N r : K) (h : (1 + r) ^ n ≠ 1) :
    annuity (n : ℤ) N r =
      .ok ((List.range n).map fun i => N * r / ((1 + r) ^ n - 1) * (1 + r) ^ i) := by
  have h1 : ¬ (1 + r = 0 ∧ (n : ℤ) < 0) := by rintro ⟨_, h⟩; omega
  simp only [annuity, pyIntPow, h1, if_false, Py.ok_bind, zpow_natCast, Int.toNat_natCast]
  rw [pyDiv_ok (sub_ne_zero.2 h), Py.ok_bind]
  simp

theorem geom_range_sum (q : K) (n : ℕ) :
    ((List.range n).map fun i => q ^ i).sum * (q - 1) = q ^ n - 1 := by
  induction n with
  | zero => simp
  | succ n ih => rw [List.range_succ]; simp only [List.map_append, List.sum_append, List.map_cons,
      List.map_nil, List.sum_cons, List.sum_nil, add_mul, ih]; ring

/-- C05 (annuity): if `(1+r)^n ≠ 1` there are `n` payments with total `N` and constant growth
`1 + r`; otherwise (for example `r = 0` or `n = 0`) the call raises `ZeroDivisionError`. -/
theorem C05_annuity (n : ℕ) (N r : K) :
    ((1 + r) ^ n = 1 → annuity (n : ℤ) N r = .error .zeroDivision) ∧
    ((1 + r) ^ n ≠ 1 → ∃ l, annuity (n : ℤ) N r = .ok l ∧ l.length = n ∧ l.sum = N ∧
      ∀ i (h : i + 1 < l.length), l[i + 1] = (1 + r) * l[i]) := by
  constructor
  · intro h
    have h1 : ¬ (1 + r = 0 ∧ (n : ℤ) < 0) := by rintro ⟨_, h⟩; omega
    simp only [annuity, pyIntPow, h1, if_false, Py.ok_bind, zpow_natCast, h, sub_self, pyDiv_zero,
      Py.error_bind]
  · intro h
    refine ⟨_, annuity_eq n N r h, by simp, ?_, fun i hi => ?_⟩
    · rw [List.sum_map_mul_left]
      have g := geom_range_sum (1 + r) n
      rw [add_sub_cancel_left] at g
      have h2 := sub_ne_zero.2 h
      field_simp
      rw [← g]; ring
    · simp only [List.getElem_map, List.getElem_range]; ring

/-- C05 (annuity, zero rate): an interest-free annuity plan cannot be built although the equal
instalments `N / n` would be its natural value. -/
theorem C05_annuity_zero_rate (n : ℕ) (N : K) :
    annuity (n : ℤ) N 0 = .error .zeroDivision := (C05_annuity n N 0).1 (by simp)

example : (1 + 1 / 100 : ℚ) ^ 3 ≠ 1 := by norm_num
example : amortize 4 (100 : ℚ) = .ok [25, 25, 25, 25] := by decide +kernel
example : bullet 3 (100 : ℚ) = .ok [0, 0, 100] := by decide +kernel
example : annuity 2 (210 : ℚ) (1 / 10) = .ok [100, 110] := by decide +kernel

/-! ## C07: outstanding is the running balance -/

omit [LinearOrder K] [IsStrictOrderedRing K] in
theorem outstandingLoop_length (s a : K) (l : List K) : (outstandingLoop s a l).length = l.length := by
  induction l generalizing a with
  | nil => rfl
  | cons p l ih => simp [outstandingLoop, ih]

omit [LinearOrder K] [IsStrictOrderedRing K] in
theorem outstandingLoop_get (s a : K) (l : List K) (i : ℕ) (h : i < (outstandingLoop s a l).length) :
    (outstandingLoop s a l)[i] = a + s * (l.take (i + 1)).sum := by
  induction l generalizing a i with
  | nil => simp [outstandingLoop] at h
  | cons p l ih =>
    cases i with
    | zero => simp [outstandingLoop]
    | succ i =>
      simp only [outstandingLoop, List.getElem_cons_succ, List.take_succ_cons, List.sum_cons]
      rw [ih]; ring

omit [LinearOrder K] [IsStrictOrderedRing K] in
/-- C07: length `max 1 (len plan)` and entry `i` is `N ∓` the sum of the first `i` payments. -/
theorem C07_outstanding (plan : List K) (N : K) (sign : Bool) :
    (outstanding plan N sign).length = max 1 plan.length ∧
    ∀ i (h : i < (outstanding plan N sign).length),
      (outstanding plan N sign)[i] =
        if sign then N + (plan.take i).sum else N - (plan.take i).sum := by
  have hlen : (outstanding plan N sign).length = plan.length - 1 + 1 := by
    simp [outstanding, outstandingLoop_length]
  refine ⟨by omega, fun i h => ?_⟩
  cases i with
  | zero => simp [outstanding]
  | succ i =>
    simp only [outstanding, List.getElem_cons_succ]
    rw [outstandingLoop_get]
    have h3 : i + 1 ≤ plan.length - 1 := by omega
    have h4 : plan.dropLast.take (i + 1) = plan.take (i + 1) := by
      rw [List.dropLast_eq_take, List.take_take, min_eq_left h3]
    rw [h4]
    cases sign <;> simp [sub_eq_add_neg]

omit [LinearOrder K] [IsStrictOrderedRing K] in
/-- C07 (step form): each balance is the previous one minus the payment in between. -/
theorem C07_step (plan : List K) (N : K) (i : ℕ)
    (h : i + 1 < (outstanding plan N false).length) (hp : i < plan.length) :
    (outstanding plan N false)[i + 1] = (outstanding plan N false)[i] - plan[i] := by
  rw [(C07_outstanding plan N false).2, (C07_outstanding plan N false).2 i (by omega)]
  simp only [Bool.false_eq_true, if_false]
  rw [List.take_add_one, List.sum_append, List.getElem?_eq_getElem hp]
  simp; ring

example : outstanding [25, 25, 50] (100 : ℚ) false = [100, 75, 50] := by decide +kernel

/-! ## C06: annuities -/

/-- C06: principal plus interest on the outstanding balance is the same in every period, and the
last payment clears the balance. -/
theorem C06_annuity (n : ℕ) (N r : K) (h : (1 + r) ^ n ≠ 1) (plan : List K)
    (hp : annuity (n : ℤ) N r = .ok plan) :
    ∃ c, (outstanding plan N false).length = plan.length ∧
      (∀ i (h1 : i < plan.length) (h2 : i < (outstanding plan N false).length),
        plan[i] + r * (outstanding plan N false)[i] = c) ∧
      ∀ (h1 : n - 1 < plan.length) (h2 : n - 1 < (outstanding plan N false).length),
        (outstanding plan N false)[n - 1] - plan[n - 1] = 0 := by
  have hn : n ≠ 0 := by rintro rfl; simp at h
  rw [annuity_eq n N r h] at hp
  cases hp
  have h2 := sub_ne_zero.2 h
  set a := N * r / ((1 + r) ^ n - 1) with ha
  have hlen : ((List.range n).map fun i => a * (1 + r) ^ i).length = n := by simp
  have htake : ∀ i, i ≤ n → (((List.range n).map fun i => a * (1 + r) ^ i).take i).sum * r =
      a * ((1 + r) ^ i - 1) := by
    intro i hi
    rw [← List.map_take, List.take_range, min_eq_left hi, List.sum_map_mul_left, ← geom_range_sum]
    ring
  have hN : N * r = a * ((1 + r) ^ n - 1) := by rw [ha]; field_simp
  have hr : r ≠ 0 := by rintro rfl; simp at h
  refine ⟨a + N * r, ?_, ?_, ?_⟩
  · rw [(C07_outstanding _ N false).1, hlen]; omega
  · intro i h1 h3
    rw [(C07_outstanding _ N false).2]
    simp only [Bool.false_eq_true, if_false, List.getElem_map, List.getElem_range]
    rw [hlen] at h1
    linear_combination -htake i h1.le
  · intro h1 h3
    rw [(C07_outstanding _ N false).2]
    simp only [Bool.false_eq_true, if_false, List.getElem_map, List.getElem_range]
    have h4 := htake (n - 1) (by omega)
    have h5 : (1 + r) ^ n = (1 + r) ^ (n - 1) * (1 + r) := by
      rw [← pow_succ]; congr 1; omega
    have h6 : (N - (((List.range n).map fun i => a * (1 + r) ^ i).take (n - 1)).sum -
        a * (1 + r) ^ (n - 1)) * r = 0 := by
      linear_combination hN - h4 + a * h5
    exact (mul_eq_zero.1 h6).resolve_right hr

/-- A two-year annuity of 210 at ten percent: payments 100 and 110, each with interest 121. -/
example : annuity 2 (210 : ℚ) (1 / 10) = .ok [100, 110] ∧
    outstanding [100, 110] (210 : ℚ) false = [210, 110] := by decide +kernel

/-! ### The hypotheses can be met: each theorem applied -/

example := C05_bullet 5 (100 : ℚ) (by norm_num)
example := C05_bullet_empty (-2) (100 : ℚ) (by norm_num)
example := C07_step [(20 : ℚ), 30, 50] 100 1 (by decide +kernel) (by decide)
example := fun plan => C06_annuity 4 (100 : ℚ) (1 / 10) (by norm_num) plan

end Dcf.Plans
