import Verif.Props.RoundedRates

/-! # C180: fair rates in floating point arithmetic -/

set_option linter.unusedSectionVars false
set_option linter.unusedSimpArgs false
set_option linter.unusedVariables false

namespace Dcf

open Spec
open Rounded (FairFlow fairError coupon)

variable {p : ℕ} {rnd : ℝ → ℝ}

/-- The present value of coupons with the fixed rate `c`. -/
noncomputable def Spec.fairValue (flows : List FairFlow) (c : ℝ) : ℝ := (flows.map fun q => q.df * ((c + q.forward) * q.yf * q.amount)).sum

/-- The sum of the absolute discounted coupons. -/
noncomputable def Spec.fairSize (flows : List FairFlow) (c : ℝ) : ℝ := (flows.map fun q => |q.df * ((c + q.forward) * q.yf * q.amount)|).sum

/-- The value of a coupon rate of one. -/
noncomputable def Spec.fairAnnuity (flows : List FairFlow) : ℝ := (flows.map fun q => q.df * (q.yf * q.amount)).sum

theorem fairValue_affine (flows : List FairFlow) (c c' : ℝ) : fairValue flows c' - fairValue flows c = (c' - c) * fairAnnuity flows := by
  unfold Spec.fairValue Spec.fairAnnuity
  induction flows with
  | nil => simp
  | cons q l ih =>
    simp only [List.map_cons, List.sum_cons]
    linear_combination ih

/-- C180: without rounding the error function is the value less the target, and the search is that of the model. -/
theorem C180_unrounded (flows : List FairFlow) (target precision lo hi : ℝ) (limit : ℕ) :
    (∀ c, fairError id flows target c = fairValue flows c - target) ∧
    (bracket precision limit (fun c => (PyM.lift (.ok (fairValue flows c - target)) : PyM Unit ℝ)) lo hi ()).1.map (fun r => r.2.1) =
      Rounded.fairRate id limit flows target precision lo hi := by
  have h : ∀ c, fairError id flows target c = fairValue flows c - target := by
    intro c
    unfold fairError
    rw [presentValue_id, List.map_map]; rfl
  refine ⟨h, ?_⟩
  rw [C171_unrounded precision limit (fun c => .ok (fairValue flows c - target)), Rounded.fairRate, funext h]
  cases Rounded.bracket id precision limit (fun c => Except.ok (fairValue flows c - target)) lo hi <;> rfl

/-- C180 (error): values at a rate miss the exact ones by a number of roundings given by the number of coupons. -/
theorem C180_error (R : Rounding p rnd) (hp : 4 ≤ p) (flows : List FairFlow) (target c : ℝ) :
    |fairError rnd flows target c - (fairValue flows c - target)| ≤ ((1 + (2 : ℝ) ^ (-(p : ℤ))) ^ (flows.length + 5) - 1) * (fairSize flows c + |target|) := by
  have hu0 : 0 ≤ (2 : ℝ) ^ (-(p : ℤ)) := ulp_nonneg
  have h4 : 1 ≤ (1 + (2 : ℝ) ^ (-(p : ℤ))) ^ 4 := one_le_pow₀ (by linarith)
  have hs := fold_err_abs R hp (v := (1 + (2 : ℝ) ^ (-(p : ℤ))) ^ 4 - 1) (by linarith)
    (flows.map fun q => (rnd (q.df * coupon rnd c q.forward q.yf q.amount), q.df * ((c + q.forward) * q.yf * q.amount), |q.df * ((c + q.forward) * q.yf * q.amount)|))
    0 0 0 0 (by
      intro w hw
      obtain ⟨q, -, rfl⟩ := List.mem_map.1 hw
      refine ⟨?_, le_rfl⟩
      obtain ⟨a, ha, e1⟩ := R.factor (by omega) (c + q.forward)
      obtain ⟨b, hb, e2⟩ := R.factor (by omega) (rnd (c + q.forward) * q.yf)
      obtain ⟨d, hd, e3⟩ := R.factor (by omega) (rnd (rnd (c + q.forward) * q.yf) * q.amount)
      obtain ⟨f, hf, e4⟩ := R.factor (by omega) (q.df * coupon rnd c q.forward q.yf q.amount)
      have k : ∀ {x : ℝ}, |x| ≤ (2 : ℝ) ^ (-(p : ℤ)) → |(1 + x) - 1| ≤ (1 + (2 : ℝ) ^ (-(p : ℤ))) - 1 := fun h => by simpa using h
      have e : rnd (q.df * coupon rnd c q.forward q.yf q.amount) - q.df * ((c + q.forward) * q.yf * q.amount) =
          ((1 + a) * (1 + b) * (1 + d) * (1 + f) - 1) * (q.df * ((c + q.forward) * q.yf * q.amount)) := by
        rw [e4]
        unfold coupon
        rw [e3, e2, e1]; ring
      show |rnd (q.df * coupon rnd c q.forward q.yf q.amount) - q.df * ((c + q.forward) * q.yf * q.amount)| ≤ _
      rw [e, abs_mul]
      refine mul_le_mul_of_nonneg_right ((rel_mul (rel_mul (rel_mul (k ha) (k hb)) (k hd)) (k hf)).trans (le_of_eq (by ring))) (abs_nonneg _))
    (by simp) (by simp)
  simp only [List.map_map, Function.comp_def, zero_add, List.length_map, add_sub_cancel, ← pow_add] at hs
  have e : Rounded.presentValue rnd (flows.map fun q => (q.df, coupon rnd c q.forward q.yf q.amount)) =
      (flows.map fun q => rnd (q.df * coupon rnd c q.forward q.yf q.amount)).foldl (fun s v => rnd (s + v)) 0 := by
    unfold Rounded.presentValue Rounded.sum
    rw [List.map_map]; rfl
  rw [← e] at hs
  change |_ - fairValue flows c| ≤ _ * fairSize flows c at hs
  have hA : |fairValue flows c| ≤ fairSize flows c := abs_map_sum _ _
  unfold fairError
  obtain ⟨δ, hδ, e5⟩ := R.factor (by omega) (Rounded.presentValue rnd (flows.map fun q => (q.df, coupon rnd c q.forward q.yf q.amount)) - target)
  rw [e5]
  generalize Rounded.presentValue rnd (flows.map fun q => (q.df, coupon rnd c q.forward q.yf q.amount)) = x at *
  generalize fairValue flows c = X at *
  generalize fairSize flows c = A at *
  generalize (2 : ℝ) ^ (-(p : ℤ)) = u at *
  rw [show (x - target) * (1 + δ) - (X - target) = (x - X) * (1 + δ) + δ * (X - target) by ring]
  refine (abs_add_le _ _).trans ?_
  rw [abs_mul, abs_mul]
  have a1 : |1 + δ| ≤ 1 + u := by
    have := abs_add_le 1 δ; rw [abs_one] at this; linarith
  have a2 := mul_le_mul hs a1 (abs_nonneg _) ((abs_nonneg _).trans hs)
  have a3 : |X - target| ≤ A + |target| := (abs_sub _ _).trans (add_le_add_left hA _)
  have a4 := mul_le_mul hδ a3 (abs_nonneg _) hu0
  have a5 : u ≤ (1 + u) ^ (flows.length + 5) - 1 := by
    have : (1 + u) ^ 1 ≤ (1 + u) ^ (flows.length + 5) := pow_le_pow_right₀ (by linarith) (by omega)
    rw [pow_one] at this; linarith
  have a6 := mul_le_mul_of_nonneg_right a5 (abs_nonneg target)
  have e3 : ((1 + u) ^ (4 + flows.length) - 1) * A * (1 + u) + u * A = ((1 + u) ^ (flows.length + 5) - 1) * A := by
    rw [show flows.length + 5 = 4 + flows.length + 1 by omega, pow_succ (1 + u)]; ring
  rw [mul_add] at a4 ⊢
  linarith

/-- C180 (result): a rate that is returned lies within the bounds, and the exact value at that rate misses the target by at most the precision and the rounding
error. -/
theorem C180_result (R : Rounding p rnd) (hp : 4 ≤ p) {flows : List FairFlow} {target precision lo hi : ℝ} {limit : ℕ} (hq : IsFloat p precision) (hb : lo ≤ hi)
    (flo : IsFloat p lo) (fhi : IsFloat p hi) {M : ℝ} (hM : ∀ x, lo ≤ x → x ≤ hi → fairSize flows x ≤ M) {c : ℝ}
    (h : Rounded.fairRate rnd limit flows target precision lo hi = .ok c) :
    lo ≤ c ∧ c ≤ hi ∧ |fairValue flows c - target| ≤ precision + ((1 + (2 : ℝ) ^ (-(p : ℤ))) ^ (flows.length + 5) - 1) * (M + |target|) := by
  unfold Rounded.fairRate at h
  cases hr : Rounded.bracket rnd precision limit (fun current => .ok (fairError rnd flows target current)) lo hi with
  | error e => rw [hr] at h; cases h
  | ok r =>
    obtain ⟨a, m, b⟩ := r
    rw [hr, Py.ok_bind] at h
    obtain rfl : m = c := Except.ok.inj h
    obtain ⟨h1, h2, h3, h4, h5, h6, h7⟩ := C171_result R (by omega) hq hb flo fhi hr
    have hu0 : 0 ≤ (2 : ℝ) ^ (-(p : ℤ)) := ulp_nonneg
    have hk : 0 ≤ (1 + (2 : ℝ) ^ (-(p : ℤ))) ^ (flows.length + 5) - 1 := by
      have : 1 ≤ (1 + (2 : ℝ) ^ (-(p : ℤ))) ^ (flows.length + 5) := one_le_pow₀ (by linarith)
      linarith
    have ea := (C180_error R hp flows target a).trans (mul_le_mul_of_nonneg_left (add_le_add_left (hM a h1 (h2.trans (h3.trans h4))) _) hk)
    have eb := (C180_error R hp flows target b).trans (mul_le_mul_of_nonneg_left (add_le_add_left (hM b (h1.trans (h2.trans h3)) h4) _) hk)
    have va := fairValue_affine flows a m
    have vb := fairValue_affine flows m b
    refine ⟨h1.trans h2, h3.trans h4, ?_⟩
    generalize ((1 + (2 : ℝ) ^ (-(p : ℤ))) ^ (flows.length + 5) - 1) * (M + |target|) = ε at *
    generalize fairError rnd flows target a = ga at *
    generalize fairError rnd flows target b = gb at *
    have sgn : |ga| ≤ |gb - ga| ∧ |gb| ≤ |gb - ga| := by
      rcases le_total ga 0 with k | k <;> rcases le_total gb 0 with k' | k' <;>
        [skip; (rw [abs_of_nonpos k, abs_of_nonneg k', abs_of_nonneg (by linarith : 0 ≤ gb - ga)]; constructor <;> linarith);
          (rw [abs_of_nonneg k, abs_of_nonpos k', abs_of_nonpos (by linarith : gb - ga ≤ 0)]; constructor <;> linarith); skip]
      · rcases mul_eq_zero.1 (le_antisymm h6 (mul_nonneg_of_nonpos_of_nonpos k k')) with e | e <;> simp [e]
      · rcases mul_eq_zero.1 (le_antisymm h6 (mul_nonneg k k')) with e | e <;> simp [e]
    obtain ⟨s1, s2⟩ := sgn
    rw [abs_le] at ea eb ⊢
    have s1' := abs_le.1 (s1.trans h7.le)
    have s2' := abs_le.1 (s2.trans h7.le)
    rcases le_total 0 (fairAnnuity flows) with k | k
    · have := mul_nonneg (sub_nonneg.2 h2) k
      have := mul_nonneg (sub_nonneg.2 h3) k
      constructor <;> linarith
    · have := mul_nonpos_of_nonneg_of_nonpos (sub_nonneg.2 h2) k
      have := mul_nonpos_of_nonneg_of_nonpos (sub_nonneg.2 h3) k
      constructor <;> linarith

/-- C180 (existence): if the target lies between the values at the bounds and the precision is above the rounding errors a rate is found. -/
theorem C180_ends (R : Rounding p rnd) (hp : 4 ≤ p) {flows : List FairFlow} {target precision lo hi : ℝ} (hb : lo ≤ hi) (flo : IsFloat p lo) (fhi : IsFloat p hi)
    {M B ε : ℝ} (hM : ∀ x, lo ≤ x → x ≤ hi → fairSize flows x ≤ M) (hB : |lo| ≤ B) (hB' : |hi| ≤ B)
    (hε : ((1 + (2 : ℝ) ^ (-(p : ℤ))) ^ (flows.length + 5) - 1) * (M + |target|) ≤ ε)
    (hs : (fairValue flows lo + ε ≤ target ∧ target + ε ≤ fairValue flows hi) ∨ (fairValue flows hi + ε ≤ target ∧ target + ε ≤ fairValue flows lo))
    (hq : 32 * (2 : ℝ) ^ (-(p : ℤ)) * B < precision) (hq' : 4 * ε + 32 * (2 : ℝ) ^ (-(p : ℤ)) * B * |fairAnnuity flows| < precision) :
    ∃ n, ∀ limit, n < limit → ∃ c, Rounded.fairRate rnd limit flows target precision lo hi = .ok c := by
  have hu0 : 0 ≤ (2 : ℝ) ^ (-(p : ℤ)) := ulp_nonneg
  have hk : 0 ≤ (1 + (2 : ℝ) ^ (-(p : ℤ))) ^ (flows.length + 5) - 1 := by
    have : 1 ≤ (1 + (2 : ℝ) ^ (-(p : ℤ))) ^ (flows.length + 5) := one_le_pow₀ (by linarith)
    linarith
  have herr : ∀ x, lo ≤ x → x ≤ hi → |fairError rnd flows target x - (fairValue flows x - target)| ≤ ε := fun x h1 h2 =>
    ((C180_error R hp flows target x).trans (mul_le_mul_of_nonneg_left (add_le_add_left (hM x h1 h2) _) hk)).trans hε
  have elo := abs_le.1 (herr lo le_rfl hb)
  have ehi := abs_le.1 (herr hi hb le_rfl)
  obtain ⟨n, hn⟩ := C171_ends R hp (g := fairError rnd flows target) (f := fun x => fairValue flows x - target) (precision := precision) (ε := ε)
    (L := |fairAnnuity flows|) (B := B) hb flo fhi (by
      rcases hs with ⟨k1, k2⟩ | ⟨k1, k2⟩
      · exact mul_nonpos_of_nonpos_of_nonneg (by linarith) (by linarith)
      · exact mul_nonpos_of_nonneg_of_nonpos (by linarith) (by linarith)) hB hB' herr (fun x y _ hxy _ => by
        rw [sub_sub_sub_cancel_right, fairValue_affine, abs_mul, abs_of_nonneg (sub_nonneg.2 hxy), mul_comm]) (abs_nonneg _) hq hq'
  refine ⟨n, fun limit hl => ?_⟩
  obtain ⟨r, hr⟩ := hn limit hl
  exact ⟨r.2.1, by rw [Rounded.fairRate, hr, Py.ok_bind]⟩

/-- C180 (no rate within the bounds): if the values at both bounds are on the same side of the target, by more than the rounding error, the search is refused. -/
theorem C180_refuses (R : Rounding p rnd) (hp : 4 ≤ p) {flows : List FairFlow} {target precision lo hi : ℝ} (hb : lo ≤ hi) (flo : IsFloat p lo) (fhi : IsFloat p hi)
    {limit : ℕ} (hl : limit ≠ 0) {M : ℝ} (hM : ∀ x, lo ≤ x → x ≤ hi → fairSize flows x ≤ M)
    (hs : 0 < (fairValue flows lo - target) * (fairValue flows hi - target))
    (h1 : ((1 + (2 : ℝ) ^ (-(p : ℤ))) ^ (flows.length + 5) - 1) * (M + |target|) < |fairValue flows lo - target|)
    (h2 : ((1 + (2 : ℝ) ^ (-(p : ℤ))) ^ (flows.length + 5) - 1) * (M + |target|) < |fairValue flows hi - target|) :
    Rounded.fairRate rnd limit flows target precision lo hi = .error .assertion := by
  have hu0 : 0 ≤ (2 : ℝ) ^ (-(p : ℤ)) := ulp_nonneg
  have hk : 0 ≤ (1 + (2 : ℝ) ^ (-(p : ℤ))) ^ (flows.length + 5) - 1 := by
    have : 1 ≤ (1 + (2 : ℝ) ^ (-(p : ℤ))) ^ (flows.length + 5) := one_le_pow₀ (by linarith)
    linarith
  have elo := (C180_error R hp flows target lo).trans (mul_le_mul_of_nonneg_left (add_le_add_left (hM lo le_rfl hb) _) hk)
  have ehi := (C180_error R hp flows target hi).trans (mul_le_mul_of_nonneg_left (add_le_add_left (hM hi hb le_rfl) _) hk)
  have := (C171_refuses R (by omega) (fairError rnd flows target) precision hl hb flo fhi).2 (by
    generalize ((1 + (2 : ℝ) ^ (-(p : ℤ))) ^ (flows.length + 5) - 1) * (M + |target|) = ε at *
    rw [abs_le] at elo ehi
    rcases pos_and_pos_or_neg_and_neg_of_mul_pos hs with ⟨k1, k2⟩ | ⟨k1, k2⟩
    · rw [abs_of_pos k1] at h1
      rw [abs_of_pos k2] at h2
      exact mul_pos (by linarith) (by linarith)
    · rw [abs_of_neg k1] at h1
      rw [abs_of_neg k2] at h2
      exact mul_pos_of_neg_of_neg (by linarith) (by linarith))
  rw [Rounded.fairRate, this]; rfl

/-- C180 violated (large amounts): one coupon of a year on an amount of at least `2 ^ 33`, to be worth one eighth of it: the fair rate is 1/8, within the default bounds,
but with any precision up to `2 ^ -23`, so with the default `1e-7`, no recursion limit is enough. -/
theorem C180_amounts_violated (R : Rounding 53 rnd) {N : ℝ} (hN : IsFloat 53 N) (h33 : (2 : ℝ) ^ 33 ≤ N) {precision : ℝ} (hq : precision ≤ (2 : ℝ) ^ (-23 : ℤ)) (limit : ℕ) :
    Rounded.fairRate rnd limit [⟨1, 0, 1, N⟩] (N / 8) precision (rnd (-1 / 10)) (rnd (1 / 5)) = .error .recursion ∧ fairValue [⟨1, 0, 1, N⟩] (1 / 8) = N / 8 := by
  have hN0 : 0 < N := lt_of_lt_of_le (by positivity) h33
  have fT : IsFloat 53 (N / 8) := by
    obtain ⟨m, e, h1, rfl⟩ := hN
    exact ⟨m, e - 3, h1, by rw [zpow_sub₀ (by norm_num)]; norm_num; ring⟩
  have flo := R.float (-1 / 10)
  have fhi := R.float (1 / 5)
  have hlo : rnd (-1 / 10) ≤ 0 := R.nonpos (by norm_num)
  have hhi : 1 / 8 ≤ rnd (1 / 5) := R.ge_of_ge (by norm_num) ⟨1, -3, by norm_num, by norm_num⟩
  have hg : ∀ x, IsFloat 53 x → fairError rnd [⟨1, 0, 1, N⟩] (N / 8) x = rnd (rnd (x * N) - N / 8) := by
    intro x hx
    simp only [fairError, Rounded.presentValue, Rounded.sum, coupon, List.map, List.foldl, add_zero, mul_one, one_mul, zero_add, R.idem, R.eq_self hx]
  refine ⟨?_, by simp [Spec.fairValue]; ring⟩
  have hT : (2 : ℝ) ^ (30 : ℤ) ≤ N / 8 := by norm_num at h33 ⊢; linarith
  have glo : rnd (rnd (rnd (-1 / 10) * N) - N / 8) < 0 := by
    have h1 : rnd (rnd (-1 / 10) * N) ≤ 0 := R.nonpos (mul_nonpos_of_nonpos_of_nonneg hlo hN0.le)
    have h2 := R.le_of_le (by linarith : rnd (rnd (-1 / 10) * N) - N / 8 ≤ -(N / 8)) fT.neg
    linarith
  have ghi : 0 ≤ rnd (rnd (rnd (1 / 5) * N) - N / 8) := by
    refine R.nonneg (sub_nonneg.2 (R.ge_of_ge ?_ fT))
    have := mul_le_mul_of_nonneg_right hhi hN0.le
    linarith
  have := bracket_stuck R (by norm_num) (g := fairError rnd [⟨1, 0, 1, N⟩] (N / 8)) (precision := precision) (s := (2 : ℝ) ^ (-23 : ℤ)) (IsFloat.two_zpow (by norm_num) _) hq
    (by positivity) (by linarith) flo fhi (by rw [hg _ flo, hg _ fhi]; exact mul_nonpos_of_nonpos_of_nonneg glo.le ghi) (by rw [hg _ flo]; exact glo.ne) (fun x _ _ hx => by
      rw [hg x hx]
      by_cases hv : (2 : ℝ) ^ (29 : ℤ) ≤ |rnd (x * N)|
      · have := diff_large R (by norm_num) (R.float (x * N)) fT hv (by rw [abs_of_pos (by linarith)]; norm_num at hT ⊢; linarith)
        norm_num at this ⊢; exact this
      · right
        have h1 := lt_of_abs_lt (not_le.1 hv)
        have h2 := R.le_of_le (by norm_num at h1 hT ⊢; linarith : rnd (x * N) - N / 8 ≤ -(2 : ℝ) ^ (29 : ℤ)) (IsFloat.two_zpow (by norm_num) _).neg
        rw [le_abs]; right
        norm_num at h2 ⊢; linarith) limit
  rw [Rounded.fairRate, this]; rfl

/-! ### Examples -/

/-- Two coupons of half a year on 100. -/
noncomputable def exFair : List FairFlow := [⟨99 / 100, 1 / 100, 1 / 2, 100⟩, ⟨98 / 100, 1 / 100, 1 / 2, 100⟩]

theorem exFair_size (x : ℝ) (h1 : -(1 / 8) ≤ x) (h2 : x ≤ 1 / 4) : fairSize exFair x ≤ 30 := by
  simp only [Spec.fairSize, exFair, List.map, List.sum_cons, List.sum_nil, add_zero]
  rw [abs_mul, abs_mul (98 / 100 : ℝ), abs_mul, abs_mul]
  have : |x + 1 / 100| ≤ 26 / 100 := by rw [abs_le]; constructor <;> linarith
  norm_num [abs_of_pos] at this ⊢
  linarith

theorem exFair_found (R : Rounding 53 rnd) : ∃ n, ∀ limit, n < limit → ∃ c, Rounded.fairRate rnd limit exFair 5 (1 / 1024) (-(1 / 8)) (1 / 4) = .ok c :=
  C180_ends R (by norm_num) (by norm_num) ⟨-1, -3, by norm_num, by norm_num⟩ ⟨1, -2, by norm_num, by norm_num⟩ exFair_size (B := 1 / 4) (ε := 1 / 100000)
    (by norm_num [abs_of_pos]) (by norm_num [abs_of_pos]) (by norm_num [exFair, abs_of_pos]) (.inl (by norm_num [Spec.fairValue, exFair])) (by norm_num)
    (by norm_num [Spec.fairAnnuity, exFair, abs_of_pos])

example (R : Rounding 53 rnd) : ∃ limit c, Rounded.fairRate rnd limit exFair 5 (1 / 1024) (-(1 / 8)) (1 / 4) = .ok c ∧ |fairValue exFair c - 5| ≤ 1 / 1000 := by
  obtain ⟨n, hn⟩ := exFair_found R
  obtain ⟨c, hc⟩ := hn (n + 1) (by omega)
  have := C180_result R (by norm_num) ⟨1, -10, by norm_num, by norm_num⟩ (by norm_num) ⟨-1, -3, by norm_num, by norm_num⟩ ⟨1, -2, by norm_num, by norm_num⟩ exFair_size hc
  refine ⟨n + 1, c, hc, this.2.2.trans ?_⟩
  norm_num [exFair, abs_of_pos]

example (R : Rounding 53 rnd) : Rounded.fairRate rnd 10 exFair 500 (1 / 1024) (-(1 / 8)) (1 / 4) = .error .assertion :=
  C180_refuses R (by norm_num) (by norm_num) ⟨-1, -3, by norm_num, by norm_num⟩ ⟨1, -2, by norm_num, by norm_num⟩ (by norm_num) exFair_size
    (by norm_num [Spec.fairValue, exFair]) (by norm_num [Spec.fairValue, exFair, abs_of_neg, abs_of_pos]) (by norm_num [Spec.fairValue, exFair, abs_of_neg, abs_of_pos])

example (R : Rounding 53 rnd) := C180_amounts_violated R (N := 2 ^ 33) ⟨1, 33, by norm_num, by norm_num⟩ le_rfl (precision := 1 / 10000000) (by norm_num) 1000

end Dcf
