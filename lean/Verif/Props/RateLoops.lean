import Verif.Props.RateCurve
import Mathlib.Algebra.BigOperators.Field
import Mathlib.Algebra.Order.BigOperators.Group.Finset

/-! # Step by step rates of short rate and cash rate curves: C32 -/

set_option linter.unusedSectionVars false
set_option linter.unusedSimpArgs false
set_option linter.unusedVariables false

namespace Dcf

open Spec Finset

section
variable {D P : Type} [LinearOrder D] {cal : Cal D P} {c : IRCurve D P} {v : D → ℝ} {τ : D → D → ℝ} {o : D}

/-- `d` is the sequence of dates from `s` in steps of `p`. -/
structure Steps (cal : Cal D P) (p : P) (s : D) (d : ℕ → D) : Prop where
  zero : d 0 = s
  step : ∀ k, cal.add (d k) p = .ok (d (k + 1))

/-- The number of full steps walked before `t`: all steps up to `d n` end before `t`, the next does not. -/
structure StepsTo (d : ℕ → D) (n : ℕ) (t : D) : Prop where
  lt : ∀ k < n, d (k + 1) < t
  le : t ≤ d (n + 1)

/-- If the steps reach `t` at all there is such a number. -/
theorem StepsTo.exists {d : ℕ → D} {t : D} (h : ∃ m, t ≤ d (m + 1)) : ∃ n, StepsTo d n t := by
  classical
  refine ⟨Nat.find h, fun k hk => ?_, Nat.find_spec h⟩
  exact not_le.1 (Nat.find_min h hk)

theorem Steps.tail {p : P} {s : D} {d : ℕ → D} (h : Steps cal p s d) : Steps cal p (d 1) fun k => d (k + 1) :=
  ⟨rfl, fun k => h.step (k + 1)⟩

theorem Steps.drop {p : P} {s : D} {d : ℕ → D} (h : Steps cal p s d) (m : ℕ) :
    Steps cal p (d m) fun k => d (m + k) :=
  ⟨rfl, fun k => h.step (m + k)⟩

theorem stepLoop_eq {p : P} {t : D} {update : ℝ → D → D → Py ℝ} {n : ℕ} {s : D} {d : ℕ → D} {F : ℕ → ℝ}
    (hd : Steps cal p s d) (hn : StepsTo d n t)
    (hF : ∀ k < n, update (F k) (d k) (d (k + 1)) = .ok (F (k + 1))) :
    stepLoop cal p t update s (F 0) = .ok (d n, F n) := by
  induction n generalizing s d F with
  | zero =>
    unfold stepLoop
    rw [pyWhile_step]
    have h0 := hd.step 0
    have hle : ¬ d 1 < t := not_lt.2 hn.le
    rw [hd.zero] at h0
    simp [h0, hle, hd.zero]
  | succ n ih =>
    unfold stepLoop
    rw [pyWhile_step]
    have h0 := hd.step 0
    have hlt : d 1 < t := hn.lt 0 (Nat.succ_pos n)
    have hu := hF 0 (Nat.succ_pos n)
    simp only [Nat.zero_add] at h0 hu
    have := ih (F := fun k => F (k + 1)) hd.tail
      ⟨fun k hk => hn.lt (k + 1) (by omega), hn.le⟩ fun k hk => hF (k + 1) (by omega)
    unfold stepLoop at this
    rw [hd.zero] at h0 hu
    simp only [h0, Py.ok_bind, hlt, decide_true, if_true, hu]
    exact this

/-- If the steps never reach `t` the loop does not end. -/
theorem stepLoop_diverges {p : P} {t : D} {update : ℝ → D → D → Py ℝ} {s : D} {d : ℕ → D} (a : ℝ)
    (hd : Steps cal p s d) (hn : ∀ k, d (k + 1) < t) (hu : ∀ a k, ∃ b, update a (d k) (d (k + 1)) = .ok b) :
    stepLoop cal p t update s a = .error .diverges := by
  unfold stepLoop
  refine pyWhile_diverges (fun x => ∃ k, x.1 = d k) ⟨0, hd.zero.symm⟩ ?_ ?_
  · rintro ⟨x, a⟩ ⟨k, rfl⟩
    simp [hd.step, hn]
  · rintro ⟨x, a⟩ ⟨k, rfl⟩
    obtain ⟨b, hb⟩ := hu a k
    exact ⟨(d (k + 1), b), by simp [hd.step, hb], k + 1, rfl⟩

/-- C32: the zero rate of a short rate curve is the average of the daily left-endpoint rates weighted by
day count. -/
theorem C32_integral (h : Answers cal c v τ o) (hc : c.cls = .short) (same : Bool) {s t : D} (hst : s ≠ t) {d : ℕ → D} {n : ℕ}
    (hd : Steps cal cal.oneDay s d) (hn : StepsTo d n t) :
    c.rate cal same s t = .ok ((∑ k ∈ range n, v (d k) * τ (d k) (d (k + 1)) + v (d n) * τ (d n) t) / τ s t) := by
  have := stepLoop_eq (update := fun rate current next => do
      let r ← c.call cal current
      let t ← c.dayCount cal current next
      .ok (rate + r * t)) (F := fun n => ∑ k ∈ range n, v (d k) * τ (d k) (d (k + 1))) hd hn
    (fun k _ => by simp [h.call, h.dayCount, sum_range_succ])
  simp only [range_zero, sum_empty] at this
  simp only [IRCurve.rate, hc, IRCurve.shortRateOf, hst, if_false]
  rw [this]
  simp [h.call, h.dayCount, pyDiv_ok (h.good.ne_zero hst)]

/-- C32 (end of the loop): it ends if and only if daily steps reach the end date. -/
theorem C32_terminates (h : Answers cal c v τ o) (hc : c.cls = .short) (same : Bool) {s t : D} (hst : s ≠ t) {d : ℕ → D}
    (hd : Steps cal cal.oneDay s d) :
    ((∃ z, c.rate cal same s t = .ok z) ↔ ∃ m, t ≤ d (m + 1)) ∧
    (c.rate cal same s t = .error .diverges ↔ ∀ m, d (m + 1) < t) := by
  by_cases hr : ∃ m, t ≤ d (m + 1)
  · obtain ⟨n, hn⟩ := StepsTo.exists hr
    rw [C32_integral h hc same hst hd hn]
    refine ⟨⟨fun _ => hr, fun _ => ⟨_, rfl⟩⟩, ⟨fun e => (by cases e), fun e => ?_⟩⟩
    obtain ⟨m, hm⟩ := hr
    exact absurd (e m) hm.not_gt
  · have hlt : ∀ m, d (m + 1) < t := by simpa using hr
    have : c.rate cal same s t = .error .diverges := by
      simp only [IRCurve.rate, hc, IRCurve.shortRateOf, hst, if_false]
      rw [stepLoop_diverges 0 hd hlt fun a k => ⟨a + v (d k) * τ (d k) (d (k + 1)), by simp [h.call, h.dayCount]⟩]
      rfl
    rw [this]
    exact ⟨⟨fun ⟨z, hz⟩ => (by cases hz), fun e => absurd e hr⟩, ⟨fun _ => hlt, fun _ => rfl⟩⟩

theorem sum_steps (hτ : GoodDayCount τ) (d : ℕ → D) (n : ℕ) :
    ∑ k ∈ range n, τ (d k) (d (k + 1)) = τ (d 0) (d n) := by
  induction n with
  | zero => simp [hτ.self]
  | succ n ih => rw [sum_range_succ, ih, hτ.add]

/-- C32 (flat curves): a constant short rate is the zero rate of every period. -/
theorem C32_flat (h : Answers cal c v τ o) (hc : c.cls = .short) (same : Bool) {s t : D} {d : ℕ → D}
    (hd : Steps cal cal.oneDay s d) (hr : ∃ m, t ≤ d (m + 1)) {r : ℝ} (hv : ∀ x, v x = r) :
    c.rate cal same s t = .ok r := by
  by_cases hst : s = t
  · subst hst; simp [IRCurve.rate, hc, IRCurve.shortRateOf, h.call, hv]
  · obtain ⟨n, hn⟩ := StepsTo.exists hr
    rw [C32_integral h hc same hst hd hn]
    congr 1
    simp only [hv, ← mul_sum, sum_steps h.good, ← mul_add, h.good.add, hd.zero]
    rw [mul_div_assoc, div_self (h.good.ne_zero hst), mul_one]

/-- Steps go forward in time. -/
def Increasing (d : ℕ → D) : Prop := ∀ k, d k < d (k + 1)

theorem Increasing.lt {d : ℕ → D} (h : Increasing d) {i j : ℕ} (hij : i < j) : d i < d j :=
  strictMono_nat_of_lt_succ h hij

theorem StepsTo.self {d : ℕ → D} (h : Increasing d) (m : ℕ) : StepsTo d m (d (m + 1)) :=
  ⟨fun k hk => h.lt (by omega), le_rfl⟩

theorem StepsTo.append {d : ℕ → D} (h : Increasing d) {m n : ℕ} {u : D} (hu : d m < u)
    (hn : StepsTo (fun k => d (m + k)) n u) : StepsTo d (m + n) u := by
  refine ⟨fun k hk => ?_, hn.le⟩
  rcases lt_or_ge k m with hkm | hkm
  · rcases Nat.lt_or_ge (k + 1) m with h1 | h1
    · exact (h.lt h1).trans hu
    · have : k + 1 = m := by omega
      rw [this]; exact hu
  · have := hn.lt (k - m) (by omega)
    rwa [show m + (k - m + 1) = k + 1 by omega] at this

/-- C32 (additivity): splitting a period at a date reached by daily steps from its start. -/
theorem C32_additive (h : Answers cal c v τ o) (hc : c.cls = .short) (same same' same'' : Bool) {s u : D} {d : ℕ → D}
    (hd : Steps cal cal.oneDay s d) (hi : Increasing d) (m : ℕ) (hu : d (m + 1) < u) (hr : ∃ k, u ≤ d (k + 1)) :
    ∃ z₁ z₂ z, c.rate cal same s (d (m + 1)) = .ok z₁ ∧ c.rate cal same' (d (m + 1)) u = .ok z₂ ∧
      c.rate cal same'' s u = .ok z ∧ z₁ * τ s (d (m + 1)) + z₂ * τ (d (m + 1)) u = z * τ s u := by
  have hs1 : s < d (m + 1) := by rw [← hd.zero]; exact hi.lt (Nat.succ_pos m)
  have hd' := hd.drop (m + 1)
  have hr' : ∃ k, u ≤ d (m + 1 + (k + 1)) := by
    obtain ⟨k, hk⟩ := hr
    refine ⟨k, hk.trans (le_of_lt (hi.lt (by omega)))⟩
  obtain ⟨n, hn⟩ := StepsTo.exists (d := fun k => d (m + 1 + k)) hr'
  have e1 := C32_integral h hc same hs1.ne hd (StepsTo.self hi m)
  have e2 := C32_integral h hc same' hu.ne hd' hn
  have e3 := C32_integral h hc same'' (hs1.trans hu).ne hd (hn.append hi hu)
  refine ⟨_, _, _, e1, e2, e3, ?_⟩
  rw [div_mul_cancel₀ _ (h.good.ne_zero hs1.ne), div_mul_cancel₀ _ (h.good.ne_zero hu.ne),
    div_mul_cancel₀ _ (h.good.ne_zero (hs1.trans hu).ne), ← sum_range_succ
      (fun k => v (d k) * τ (d k) (d (k + 1))) m, sum_range_add _ (m + 1) n]
  simp only [Nat.add_assoc]
  ring

/-- C28 (short rates): discount factors multiply when splitting at a date reached by daily steps. -/
theorem C28_short (h : Answers cal c v τ o) (hc : c.cls = .short) (same same' same'' : Bool) {s u : D} {d : ℕ → D}
    (hd : Steps cal cal.oneDay s d) (hi : Increasing d) (m : ℕ) (hu : d (m + 1) < u) (hr : ∃ k, u ≤ d (k + 1)) :
    ∃ a b, 0 < a ∧ 0 < b ∧ c.factor cal same s (d (m + 1)) = .ok a ∧ c.factor cal same' (d (m + 1)) u = .ok b ∧
      c.factor cal same'' s u = .ok (a * b) := by
  have hs1 : s < d (m + 1) := by rw [← hd.zero]; exact hi.lt (Nat.succ_pos m)
  obtain ⟨z₁, z₂, z, e1, e2, e3, e⟩ := C32_additive h hc same same' same'' hd hi m hu hr
  have hc' : c.cls ≠ .discount := by simp [hc]
  refine ⟨Real.exp (-(z₁ * τ s (d (m + 1)))), Real.exp (-(z₂ * τ (d (m + 1)) u)), Real.exp_pos _, Real.exp_pos _, ?_, ?_, ?_⟩
  · rw [factor_of_rate h hc' _ hs1.ne, e1]; rfl
  · rw [factor_of_rate h hc' _ hu.ne, e2]; rfl
  · rw [factor_of_rate h hc' _ (hs1.trans hu).ne, e3, ← Real.exp_add, Py.map_ok]
    congr 2; linarith

/-! ### Cash rate curves -/

/-- C32 (cash rates): the discount factor of a cash rate curve is the product of the simply compounded
stored rates over the tenor steps and the remaining stub. -/
theorem C32_cash (h : Answers cal c v τ o) (hc : c.cls = .cash) (same : Bool) {s t : D} (hst : s ≠ t) {d : ℕ → D} {n : ℕ}
    (hd : Steps cal (c.tenor.getD cal.threeMonths) s d) (hn : StepsTo d n t)
    (hpos : ∀ k < n, 0 < 1 + v (d k) * τ (d k) (d (k + 1))) (hpos' : 0 < 1 + v (d n) * τ (d n) t) :
    c.factor cal same s t =
      .ok ((∏ k ∈ range n, 1 / (1 + v (d k) * τ (d k) (d (k + 1)))) * (1 / (1 + v (d n) * τ (d n) t))) := by
  have := stepLoop_eq (update := fun df current next => do
      let dc ← c.dayCount cal current next
      let r ← c.call cal current
      let x ← simpleCompounding r dc
      .ok (df * x)) (F := fun n => ∏ k ∈ range n, 1 / (1 + v (d k) * τ (d k) (d (k + 1)))) hd hn
    (fun k hk => by
      simp [h.call, h.dayCount, prod_range_succ, simpleCompounding, pyDiv_ok (hpos k hk).ne', mul_comm])
  simp only [range_zero, prod_empty] at this
  set q := (∏ k ∈ range n, 1 / (1 + v (d k) * τ (d k) (d (k + 1)))) * (1 / (1 + v (d n) * τ (d n) t)) with hq
  have hqpos : 0 < q := mul_pos (prod_pos fun k hk => div_pos one_pos (hpos k (mem_range.1 hk))) (div_pos one_pos hpos')
  have hrate : c.rate cal same s t = .ok (-Real.log q / τ s t) := by
    simp only [IRCurve.rate, hc, IRCurve.cashRateOf, hst, if_false, IRCurve.forwardTenor]
    rw [this]
    simp only [Py.ok_bind, h.call, h.dayCount, simpleCompounding, pyDiv_ok hpos'.ne', ← hq, continuousRate,
      pyLog_ok hqpos, pyDiv_ok (h.good.ne_zero hst)]
  rw [factor_of_rate h (by simp [hc]) same hst, hrate, Py.map_ok, div_mul_cancel₀ _ (h.good.ne_zero hst), neg_neg,
    Real.exp_log hqpos]

/-- C31 (cash rates): over one tenor the stored rate satisfies the deposit identity. -/
theorem C31_cash (h : Answers cal c v τ o) (hc : c.cls = .cash) (same : Bool) (limit : ℕ) {s : D} {d : ℕ → D}
    (hd : Steps cal (c.tenor.getD cal.threeMonths) s d) (hst : s ≠ d 1) (hpos : 0 < 1 + v s * τ s (d 1)) :
    ∃ f df, c.cashRate cal same (limit + 1) s none none = .ok f ∧ c.factor cal same s (d 1) = .ok df ∧
      (1 + f * τ s (d 1)) * df = 1 := by
  have ht := hd.step 0
  rw [hd.zero] at ht
  have h1 := C34_partial hc same limit (CashEnd.tenor (c := c) (cal := cal) (d 1) ht) ht
  have h2 := C32_cash h hc same hst hd (n := 0) ⟨by simp, le_rfl⟩ (by simp) (by rw [hd.zero]; exact hpos)
  rw [h.call] at h1
  refine ⟨_, _, h1, h2, ?_⟩
  simp only [range_zero, prod_empty, one_mul, hd.zero]
  field_simp

/-- C28 (cash rates): discount factors multiply when splitting at a date reached by tenor steps. -/
theorem C28_cash (h : Answers cal c v τ o) (hc : c.cls = .cash) (same same' same'' : Bool) {s u : D} {d : ℕ → D}
    (hd : Steps cal (c.tenor.getD cal.threeMonths) s d) (hi : Increasing d) (m : ℕ) (hu : d (m + 1) < u)
    (hr : ∃ k, u ≤ d (k + 1)) (hv : ∀ x, 0 ≤ v x) :
    ∃ a b, 0 < a ∧ 0 < b ∧ c.factor cal same s (d (m + 1)) = .ok a ∧ c.factor cal same' (d (m + 1)) u = .ok b ∧
      c.factor cal same'' s u = .ok (a * b) := by
  have hs1 : s < d (m + 1) := by rw [← hd.zero]; exact hi.lt (Nat.succ_pos m)
  have hd' := hd.drop (m + 1)
  have hr' : ∃ k, u ≤ d (m + 1 + (k + 1)) := by
    obtain ⟨k, hk⟩ := hr
    exact ⟨k, hk.trans (le_of_lt (hi.lt (by omega)))⟩
  obtain ⟨n, hn⟩ := StepsTo.exists (d := fun k => d (m + 1 + k)) hr'
  have pos1 : ∀ k, 0 < 1 + v (d k) * τ (d k) (d (k + 1)) := fun k =>
    add_pos_of_pos_of_nonneg one_pos (mul_nonneg (hv _) (h.good.nonneg (hi k).le))
  have hlast : d (m + 1 + n) < u := by
    cases n with
    | zero => exact hu
    | succ n => exact hn.lt n (by omega)
  have pos2 : 0 < 1 + v (d (m + 1 + n)) * τ (d (m + 1 + n)) u :=
    add_pos_of_pos_of_nonneg one_pos (mul_nonneg (hv _) (h.good.nonneg hlast.le))
  have e1 := C32_cash h hc same hs1.ne hd (StepsTo.self hi m) (fun k _ => pos1 k) (pos1 m)
  have e2 := C32_cash h hc same' hu.ne hd' hn (fun k _ => pos1 (m + 1 + k)) pos2
  have e3 := C32_cash h hc same'' (hs1.trans hu).ne hd (hn.append hi hu) (fun k _ => pos1 k) pos2
  refine ⟨_, _, ?_, ?_, e1, e2, ?_⟩
  · exact mul_pos (prod_pos fun k _ => div_pos one_pos (pos1 k)) (div_pos one_pos (pos1 m))
  · exact mul_pos (prod_pos fun k _ => div_pos one_pos (pos1 (m + 1 + k))) (div_pos one_pos pos2)
  · rw [e3]
    congr 1
    rw [← prod_range_succ (fun k => 1 / (1 + v (d k) * τ (d k) (d (k + 1)))) m, prod_range_add _ (m + 1) n]
    simp only [Nat.add_assoc]
    ring

end

end Dcf
