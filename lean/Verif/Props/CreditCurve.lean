import Verif.Lemmas.CreditCurve
import Verif.Props.RateLoops
import Verif.Props.RateCast

/-! # Credit curves: C38-C40 -/

set_option linter.unusedSectionVars false
set_option linter.unusedSimpArgs false
set_option linter.unusedVariables false

namespace Dcf

open Spec Finset

section
variable {D P : Type} [LinearOrder D] (cal : Cal D P)

/-- The curve returns a number `v x` for every date, counts time by the additive day count `τ` and
has origin `o`.  Any interpolation, spread and fixings are allowed. -/
structure CreditAnswers (c : CRCurve D P) (v : D → ℝ) (τ : D → D → ℝ) (o : D) : Prop where
  call : ∀ x, c.call cal x = .ok (v x)
  dayCount : ∀ s e, c.dayCount cal s e = .ok (τ s e)
  good : GoodDayCount τ
  origin : c.base.origin = some o

variable {cal} {c : CRCurve D P} {v : D → ℝ} {τ : D → D → ℝ} {o : D}

/-! ### Credit curves as interest rate curves -/

/-- The interest rate curve with the same data. -/
def CRCurve.asIR (cls : IRClass) (c : CRCurve D P) : IRCurve D P := ⟨c.toRateCurve, cls⟩

theorem CreditAnswers.ir (h : CreditAnswers cal c v τ o) (cls : IRClass) : Answers cal (c.asIR cls) v τ o :=
  ⟨h.call, h.dayCount, h.good, h.origin⟩

theorem flat_rate_eq (h : CreditAnswers cal c v τ o) (hc : c.cls = .flat) (same : Bool) {s t : D} (hst : s ≠ t) :
    c.rate cal same s t = (c.asIR .zero).rate cal same s t := by
  simp only [CRCurve.rate, hc, IRCurve.rate, CRCurve.asIR, CRCurve.flatRateOf, IRCurve.zeroRateOf, hst, false_and, if_false]
  cases same with
  | true => rfl
  | false =>
    have h' := h.ir .zero
    simp only [CRCurve.asIR] at h'
    simp [IRCurve.zeroForward, h.origin, h'.call, h'.dayCount, h.call, h.dayCount, pyDate]

theorem flat_factor_eq (h : CreditAnswers cal c v τ o) (hc : c.cls = .flat) (same : Bool) (s t : D) :
    c.factor cal same s t = (c.asIR .zero).factor cal same s t := by
  by_cases hst : s = t
  · simp [CRCurve.factor, hc, IRCurve.factor, CRCurve.asIR, hst]
  · have e := flat_rate_eq h hc same hst
    simp only [CRCurve.factor, hc, IRCurve.factor, CRCurve.asIR, hst, if_false] at *
    rw [e]; rfl

theorem hazard_rate_eq (h : CreditAnswers cal c v τ o) (hc : c.cls = .hazard) (same : Bool) (s t : D) :
    c.rate cal same s t = (c.asIR .short).rate cal same s t := by
  simp only [CRCurve.rate, hc]; rfl

theorem hazard_factor_eq (h : CreditAnswers cal c v τ o) (hc : c.cls = .hazard) (same : Bool) (s t : D) :
    c.factor cal same s t = (c.asIR .short).factor cal same s t := by
  have e := hazard_rate_eq h hc same s t
  simp only [CRCurve.factor, hc, IRCurve.factor, CRCurve.asIR] at *
  rw [e]; rfl

/-! ### C38 -/

/-- C38 (flat intensities): survival probabilities are positive, 1 over an empty period and multiply over adjacent
periods. -/
theorem C38_flat (h : CreditAnswers cal c v τ o) (hc : c.cls = .flat) :
    ∃ sv : D → D → ℝ, DiscountLaws sv ∧ (∀ s t, sv s t = Real.exp (v s * τ o s - v t * τ o t)) ∧
      (∀ same s t, (same = true → s = o) → c.factor cal same s t = .ok (sv s t)) ∧
      ∀ t, c.survivalProb cal t = .ok (sv o t) := by
  obtain ⟨df, h1, h2, h3, h4⟩ := C28_zero (h.ir .zero) rfl
  refine ⟨df, h1, h2, fun same s t hs => by rw [flat_factor_eq h hc, h3 same s t hs], fun t => ?_⟩
  simp only [CRCurve.survivalProb, h.origin, pyDate, Py.ok_bind]
  rw [flat_factor_eq h hc, h3 true o t fun _ => rfl]

/-- C38 (flat intensities, monotonicity): survival never increases with the end date if and only if the cumulated
intensity never decreases; it then lies in (0,1]. -/
theorem C38_flat_monotone (h : CreditAnswers cal c v τ o) (hc : c.cls = .flat) (s : D) :
    ((∀ t u, s ≤ t → t ≤ u → v t * τ o t ≤ v u * τ o u) ↔
      ∀ t u, s ≤ t → t ≤ u → ∃ a b, c.factor cal false s t = .ok a ∧ c.factor cal false s u = .ok b ∧ b ≤ a) ∧
    ((∀ t u, s ≤ t → t ≤ u → v t * τ o t ≤ v u * τ o u) →
      ∀ t, s ≤ t → ∃ a, c.factor cal false s t = .ok a ∧ 0 < a ∧ a ≤ 1) := by
  obtain ⟨sv, h1, h2, h3, -⟩ := C38_flat h hc
  have e : ∀ t, c.factor cal false s t = .ok (Real.exp (v s * τ o s - v t * τ o t)) := fun t => by
    rw [h3 false s t (by simp), h2]
  refine ⟨⟨fun hm t u ht hu => ⟨_, _, e t, e u, Real.exp_le_exp.2 ?_⟩, fun hm t u ht hu => ?_⟩, fun hm t ht =>
    ⟨_, e t, Real.exp_pos _, Real.exp_le_one_iff.2 ?_⟩⟩
  · linarith [hm t u ht hu]
  · obtain ⟨a, b, ha, hb, hab⟩ := hm t u ht hu
    rw [e t] at ha; rw [e u] at hb
    obtain rfl := Except.ok.inj ha
    obtain rfl := Except.ok.inj hb
    linarith [Real.exp_le_exp.1 hab]
  · linarith [hm s t le_rfl ht]

/-- C38 (hazard rates): the survival probability is `exp` of minus the daily left-endpoint sum of the hazard rates. -/
theorem C38_hazard_integral (h : CreditAnswers cal c v τ o) (hc : c.cls = .hazard) (same : Bool) {s t : D} (hst : s ≠ t)
    {d : ℕ → D} {n : ℕ} (hd : Steps cal cal.oneDay s d) (hn : StepsTo d n t) :
    c.factor cal same s t =
      .ok (Real.exp (-(∑ k ∈ range n, v (d k) * τ (d k) (d (k + 1)) + v (d n) * τ (d n) t))) := by
  rw [hazard_factor_eq h hc, factor_of_rate (h.ir .short) (by simp [CRCurve.asIR]) same hst,
    C32_integral (h.ir .short) rfl same hst hd hn, Py.map_ok, div_mul_cancel₀ _ (h.good.ne_zero hst)]

/-- C38 (hazard rates): for non-negative hazard rates survival lies in (0,1] and never increases with the end date. -/
theorem C38_hazard (h : CreditAnswers cal c v τ o) (hc : c.cls = .hazard) (same same' : Bool) {s t u : D}
    {d : ℕ → D} (hd : Steps cal cal.oneDay s d) (hi : Increasing d) (hr : ∃ m, u ≤ d (m + 1))
    (hv : ∀ x, 0 ≤ v x) (hst : s ≤ t) (htu : t ≤ u) :
    c.factor cal same s s = .ok 1 ∧
    ∃ a b, c.factor cal same s t = .ok a ∧ c.factor cal same' s u = .ok b ∧ 0 < b ∧ b ≤ a ∧ a ≤ 1 := by
  have h0 : ∀ same, c.factor cal same s s = .ok 1 := fun same => by simp [CRCurve.factor, hc]
  refine ⟨h0 same, ?_⟩
  -- the integral up to a later date
  have hterm : ∀ k, 0 ≤ v (d k) * τ (d k) (d (k + 1)) := fun k => mul_nonneg (hv _) (h.good.nonneg (hi k).le)
  have hlast : ∀ {n : ℕ} {x : D}, s < x → StepsTo d n x → d n ≤ x := by
    intro n x hx hn
    cases n with
    | zero => rw [hd.zero]; exact hx.le
    | succ n => exact (hn.lt n (Nat.lt_succ_self n)).le
  have hnn : ∀ {n : ℕ} {x : D}, s < x → StepsTo d n x →
      0 ≤ ∑ k ∈ range n, v (d k) * τ (d k) (d (k + 1)) + v (d n) * τ (d n) x := fun hx hn =>
    add_nonneg (sum_nonneg fun k _ => hterm k) (mul_nonneg (hv _) (h.good.nonneg (hlast hx hn)))
  rcases hst.eq_or_lt with rfl | hst
  · rcases htu.eq_or_lt with rfl | htu
    · exact ⟨1, 1, h0 same, h0 same', one_pos, le_rfl, le_rfl⟩
    · obtain ⟨n, hn⟩ := StepsTo.exists hr
      refine ⟨1, _, h0 same, C38_hazard_integral h hc same' htu.ne hd hn, Real.exp_pos _, ?_, le_rfl⟩
      exact Real.exp_le_one_iff.2 (neg_nonpos.2 (hnn htu hn))
  · obtain ⟨n, hn⟩ := StepsTo.exists hr
    obtain ⟨m, hm⟩ := StepsTo.exists (t := t) (d := d) (hr.imp fun _ h => htu.trans h)
    have hsu := hst.trans_le htu
    refine ⟨_, _, C38_hazard_integral h hc same hst.ne hd hm, C38_hazard_integral h hc same' hsu.ne hd hn,
      Real.exp_pos _, Real.exp_le_exp.2 (neg_le_neg ?_), Real.exp_le_one_iff.2 (neg_nonpos.2 (hnn hst hm))⟩
    have hmn : m ≤ n := by
      by_contra hlt
      exact absurd (hm.lt n (not_le.1 hlt)) (not_lt.2 (htu.trans hn.le))
    rcases hmn.eq_or_lt with rfl | hmn
    · have : τ (d m) t ≤ τ (d m) u := by
        have := h.good.add (d m) t u
        have := h.good.nonneg htu
        linarith
      have := mul_le_mul_of_nonneg_left this (hv (d m))
      linarith
    · have h1 : ∑ k ∈ range (m + 1), v (d k) * τ (d k) (d (k + 1)) ≤ ∑ k ∈ range n, v (d k) * τ (d k) (d (k + 1)) :=
        sum_le_sum_of_subset_of_nonneg (range_subset_range.2 hmn) fun k _ _ => hterm k
      rw [sum_range_succ] at h1
      have h2 : τ (d m) t ≤ τ (d m) (d (m + 1)) := by
        have := h.good.add (d m) t (d (m + 1))
        have := h.good.nonneg hm.le
        linarith
      have h3 := mul_le_mul_of_nonneg_left h2 (hv (d m))
      have h4 := mul_nonneg (hv (d n)) (h.good.nonneg (hlast hsu hn))
      linarith

/-- C38 (survival probabilities): the survival probability of a period is the ratio of the curve values, 1 over an
empty period unless the value is below `2 * float_info.min` (then 0).  From the origin object it is the curve value
itself. -/
theorem C38_survival (h : CreditAnswers cal c v τ o) (hc : c.cls = .survival ∨ c.cls = .default) (hv : ∀ x, v x ≠ 0) :
    (∀ s t, s ≠ t → c.factor cal false s t = .ok (v t / v s)) ∧
    (∀ s, c.factor cal false s s = .ok (if 2 * floatMin ≤ v s then 1 else 0)) ∧
    (∀ t, c.survivalProb cal t = .ok (v t)) := by
  refine ⟨fun s t hst => ?_, fun s => ?_, fun t => ?_⟩
  · rcases hc with hc | hc <;> simp [CRCurve.factor, hc, CRCurve.survivalFactorOf, hst, h.call, pyDiv_ok (hv s)]
  · rcases hc with hc | hc <;> simp [CRCurve.factor, hc, CRCurve.survivalFactorOf, h.call]
  · rcases hc with hc | hc <;>
      simp [CRCurve.survivalProb, h.origin, pyDate, CRCurve.factor, hc, CRCurve.survivalFactorOf, h.call]

/-- C38 (survival probabilities): for a curve that is at least `2 * float_info.min` and never increases, survival
lies in (0,1], multiplies over adjacent periods and never increases with the end date. -/
theorem C38_survival_monotone (h : CreditAnswers cal c v τ o) (hc : c.cls = .survival ∨ c.cls = .default)
    (hv : ∀ x, 2 * floatMin ≤ v x) (hm : ∀ x y, x ≤ y → v y ≤ v x) {s t u : D} (hst : s ≤ t) (htu : t ≤ u) :
    ∃ a b, c.factor cal false s t = .ok a ∧ c.factor cal false t u = .ok b ∧ c.factor cal false s u = .ok (a * b) ∧
      0 < a * b ∧ a * b ≤ a ∧ a ≤ 1 := by
  have hp : ∀ x, 0 < v x := fun x => (mul_pos two_pos floatMin_pos).trans_le (hv x)
  obtain ⟨h1, h2, -⟩ := C38_survival h hc fun x => (hp x).ne'
  have key : ∀ s t, c.factor cal false s t = .ok (v t / v s) := by
    intro s t
    by_cases hst : s = t
    · subst hst; rw [h2, if_pos (hv s), div_self (hp s).ne']
    · exact h1 s t hst
  have e : v t / v s * (v u / v t) = v u / v s := by
    have := (hp s).ne'; have := (hp t).ne'; field_simp
  refine ⟨_, _, key s t, key t u, by rw [key, e], by rw [e]; exact div_pos (hp u) (hp s), ?_, ?_⟩
  · rw [e]; exact div_le_div_of_nonneg_right (hm t u htu) (hp s).le
  · exact div_le_one_of_le₀ (hm s t hst) (hp s).le

/-- C38 (survival probabilities, what goes wrong): over the empty period at the origin object the curve value is
returned, whatever it is. -/
theorem C38_survival_origin_violated (h : CreditAnswers cal c v τ o) (hc : c.cls = .survival ∨ c.cls = .default)
    (h1 : v o ≠ 1) : ∃ x, c.survivalProb cal o = .ok x ∧ x ≠ 1 :=
  ⟨v o, by rcases hc with hc | hc <;>
    simp [CRCurve.survivalProb, h.origin, pyDate, CRCurve.factor, hc, CRCurve.survivalFactorOf, h.call], h1⟩

/-- C38 (marginal probabilities): the survival probability is the product of the marginal ones over the steps of the
forward tenor, the last one taken to the power of the fraction of the step that is left. -/
theorem C38_marginal_product (h : CreditAnswers cal c v τ o) (hc : c.cls = .marginal ∨ c.cls = .marginalDefault) (same : Bool)
    {s t : D} (hst : s ≠ t) {d : ℕ → D} {n : ℕ} (hd : Steps cal (c.tenor.getD cal.oneYear) s d) (hi : Increasing d)
    (hn : StepsTo d n t) (hv : ∀ x, 2 * floatMin ≤ v x) :
    c.factor cal same s t = .ok ((∏ k ∈ range n, v (d k)) * v (d n) ^ (τ (d n) t / τ (d n) (d (n + 1)))) := by
  have hp : ∀ x, 0 < v x := fun x => (mul_pos two_pos floatMin_pos).trans_le (hv x)
  have := stepLoop_eq (update := fun df current _ => do
      let y ← c.call cal current
      .ok (df * if 2 * floatMin ≤ y then y else 0)) (F := fun n => ∏ k ∈ range n, v (d k)) hd hn
    (fun k hk => by simp [h.call, prod_range_succ, hv])
  simp only [range_zero, prod_empty] at this
  have e : c.factor cal same s t = c.marginalFactorOf cal s t := by
    rcases hc with hc | hc <;> simp [CRCurve.factor, hc]
  have hz := h.good.ne_zero (hi n).ne
  rw [e]
  simp only [CRCurve.marginalFactorOf, hst, if_false, CRCurve.forwardTenor]
  rw [this]
  simp only [Py.ok_bind, h.call, hv, if_true, hd.step, h.dayCount, continuousRate, pyLog_ok (hp _), pyDiv_ok hz,
    continuousCompounding]
  congr 2
  rw [Real.rpow_def_of_pos (hp _)]
  congr 1
  field_simp

/-- C38 (marginal probabilities): with stored values in (0,1] (and above the clamp) survival lies in (0,1] and
never increases with the end date. -/
theorem C38_marginal (h : CreditAnswers cal c v τ o) (hc : c.cls = .marginal ∨ c.cls = .marginalDefault)
    (same same' : Bool) {s t u : D} {d : ℕ → D} (hd : Steps cal (c.tenor.getD cal.oneYear) s d) (hi : Increasing d)
    (hr : ∃ m, u ≤ d (m + 1)) (hv : ∀ x, 2 * floatMin ≤ v x) (hv1 : ∀ x, v x ≤ 1) (hst : s ≤ t) (htu : t ≤ u) :
    c.factor cal same s s = .ok 1 ∧
    ∃ a b, c.factor cal same s t = .ok a ∧ c.factor cal same' s u = .ok b ∧ 0 < b ∧ b ≤ a ∧ a ≤ 1 := by
  have hp : ∀ x, 0 < v x := fun x => (mul_pos two_pos floatMin_pos).trans_le (hv x)
  have h0 : ∀ same, c.factor cal same s s = .ok 1 := fun same => by
    rcases hc with hc | hc <;> simp [CRCurve.factor, hc, CRCurve.marginalFactorOf, h.call, hv]
  refine ⟨h0 same, ?_⟩
  have hlast : ∀ {n : ℕ} {x : D}, s < x → StepsTo d n x → d n ≤ x := by
    intro n x hx hn
    cases n with
    | zero => rw [hd.zero]; exact hx.le
    | succ n => exact (hn.lt n (Nat.lt_succ_self n)).le
  have hτp : ∀ k, 0 < τ (d k) (d (k + 1)) := fun k =>
    lt_of_le_of_ne (h.good.nonneg (hi k).le) (h.good.ne_zero (hi k).ne).symm
  have hprod : ∀ n, 0 < ∏ k ∈ range n, v (d k) := fun n => prod_pos fun k _ => hp _
  have hprod1 : ∀ n, ∏ k ∈ range n, v (d k) ≤ 1 := fun n => prod_le_one (fun k _ => (hp _).le) fun k _ => hv1 _
  have hle1 : ∀ {n : ℕ} {x : D}, s < x → StepsTo d n x → v (d n) ^ (τ (d n) x / τ (d n) (d (n + 1))) ≤ 1 := fun hx hn =>
    Real.rpow_le_one (hp _).le (hv1 _) (div_nonneg (h.good.nonneg (hlast hx hn)) (hτp _).le)
  have hall : ∀ {n : ℕ} {x : D}, s < x → StepsTo d n x →
      (∏ k ∈ range n, v (d k)) * v (d n) ^ (τ (d n) x / τ (d n) (d (n + 1))) ≤ 1 := fun hx hn =>
    mul_le_one₀ (hprod1 _) (Real.rpow_pos_of_pos (hp _) _).le (hle1 hx hn)
  rcases hst.eq_or_lt with rfl | hst
  · rcases htu.eq_or_lt with rfl | htu
    · exact ⟨1, 1, h0 same, h0 same', one_pos, le_rfl, le_rfl⟩
    · obtain ⟨n, hn⟩ := StepsTo.exists hr
      exact ⟨1, _, h0 same, C38_marginal_product h hc same' htu.ne hd hi hn hv,
        mul_pos (hprod n) (Real.rpow_pos_of_pos (hp _) _), hall htu hn, le_rfl⟩
  · obtain ⟨n, hn⟩ := StepsTo.exists hr
    obtain ⟨m, hm⟩ := StepsTo.exists (t := t) (d := d) (hr.imp fun _ h => htu.trans h)
    have hsu := hst.trans_le htu
    refine ⟨_, _, C38_marginal_product h hc same hst.ne hd hi hm hv, C38_marginal_product h hc same' hsu.ne hd hi hn hv,
      mul_pos (hprod n) (Real.rpow_pos_of_pos (hp _) _), ?_, hall hst hm⟩
    have hmn : m ≤ n := by
      by_contra hlt
      exact absurd (hm.lt n (not_le.1 hlt)) (not_lt.2 (htu.trans hn.le))
    rcases hmn.eq_or_lt with rfl | hmn
    · refine mul_le_mul_of_nonneg_left (Real.rpow_le_rpow_of_exponent_ge (hp _) (hv1 _) ?_) (hprod _).le
      refine div_le_div_of_nonneg_right ?_ (hτp _).le
      have := h.good.add (d m) t u
      have := h.good.nonneg htu
      linarith
    · have h1 : ∏ k ∈ range n, v (d k) ≤ ∏ k ∈ range (m + 1), v (d k) := by
        obtain ⟨j, rfl⟩ : ∃ j, n = m + 1 + j := ⟨n - (m + 1), by omega⟩
        rw [prod_range_add]
        exact mul_le_of_le_one_right (hprod _).le (prod_le_one (fun k _ => (hp _).le) fun k _ => hv1 _)
      have h2 : v (d m) ≤ v (d m) ^ (τ (d m) t / τ (d m) (d (m + 1))) := by
        conv_lhs => rw [← Real.rpow_one (v (d m))]
        refine Real.rpow_le_rpow_of_exponent_ge (hp _) (hv1 _) ((div_le_one (hτp m)).2 ?_)
        have := h.good.add (d m) t (d (m + 1))
        have := h.good.nonneg hm.le
        linarith
      calc _ ≤ ∏ k ∈ range n, v (d k) := mul_le_of_le_one_right (hprod _).le (hle1 hsu hn)
        _ ≤ ∏ k ∈ range (m + 1), v (d k) := h1
        _ = (∏ k ∈ range m, v (d k)) * v (d m) := prod_range_succ _ _
        _ ≤ _ := mul_le_mul_of_nonneg_left h2 (hprod _).le

/-- C38 (default probabilities): a curve of (marginal) default probabilities `q` answers every question like the
curve of (marginal) survival probabilities `1 - q`. -/
theorem C38_default (marg : Bool) (domain : List D) (q : List ℝ) (i : Option FuncSpec) (o? : Option D) (dc : DayCountArg D)
    (tenor : Option P) :
    let new (cls : CRClass) (data : List ℝ) := CRCurve.new cal cls domain data i o? dc tenor
    let p := q.map fun x => 1 - x
    (∀ e, new (if marg then .marginalDefault else .default) q = .error e ↔
      new (if marg then .marginal else .survival) p = .error e) ∧
    ∀ c, new (if marg then .marginalDefault else .default) q = .ok c →
      ∃ c', new (if marg then .marginal else .survival) p = .ok c' ∧
        (∀ x, c.call cal x = c'.call cal x) ∧
        (∀ same s t, c.factor cal same s t = c'.factor cal same s t) ∧
        (∀ same s t, c.rate cal same s t = c'.rate cal same s t) ∧
        ∀ same limit s, c.hazardRate cal same limit s = c'.hazardRate cal same limit s := by
  intro new p
  have hnz : ∀ l : List ℝ, ∀ y ∈ l.map clampProb, y ≠ 0 := by
    intro l y hy
    obtain ⟨z, -, rfl⟩ := List.mem_map.1 hy
    exact (clampProb_pos z).ne'
  have e1 : new (if marg then .marginalDefault else .default) q =
      CRCurve.make cal (if marg then .marginalDefault else .default) domain (p.map clampProb) i o? dc tenor := by
    simp only [new]
    cases marg <;>
      simp [CRCurve.new, CRClass.isProb, CRClass.complement, (clampProb_pos _).ne', p]
  have e2 : new (if marg then .marginal else .survival) p =
      CRCurve.make cal (if marg then .marginal else .survival) domain (p.map clampProb) i o? dc tenor := by
    simp only [new]
    cases marg <;>
      simp [CRCurve.new, CRClass.isProb, CRClass.complement, (clampProb_pos _).ne', p]
  have hdflt : (if marg then CRClass.marginalDefault else .default).dflt = (if marg then CRClass.marginal else .survival).dflt := by
    cases marg <;> rfl
  rw [e1, e2]
  simp only [CRCurve.make, hdflt]
  cases hb : DateCurve.new cal domain (p.map clampProb) i o? dc (if marg then CRClass.marginal else .survival).dflt with
  | error e => exact ⟨fun _ => Iff.rfl, fun c h => by cases h⟩
  | ok b =>
    refine ⟨fun e => ⟨fun h => (by cases h), fun h => (by cases h)⟩, fun c hc => ⟨_, rfl, ?_⟩⟩
    simp only [Py.ok_bind] at hc
    obtain rfl := Except.ok.inj hc
    have hf : ∀ same s t, CRCurve.factor cal ⟨⟨b, tenor, none⟩, if marg then CRClass.marginalDefault else .default⟩ same s t
        = CRCurve.factor cal ⟨⟨b, tenor, none⟩, if marg then CRClass.marginal else .survival⟩ same s t := by
      intro same s t; cases marg <;> rfl
    have hr : ∀ same s t, CRCurve.rate cal ⟨⟨b, tenor, none⟩, if marg then CRClass.marginalDefault else .default⟩ same s t
        = CRCurve.rate cal ⟨⟨b, tenor, none⟩, if marg then CRClass.marginal else .survival⟩ same s t := by
      intro same s t
      cases marg <;> simp [CRCurve.rate, CRCurve.rateStop] <;> rfl
    refine ⟨fun _ => rfl, hf, hr, fun same limit => ?_⟩
    clear hf e1 e2 hdflt hb
    cases marg with
    | false =>
      simp only [Bool.false_eq_true, if_false] at hr ⊢
      induction limit with
      | zero => intro s; simp only [CRCurve.hazardRate]
      | succ n ih => intro s; simp only [CRCurve.hazardRate, ih, hr]; simp
    | true =>
      simp only [if_true] at hr ⊢
      induction limit with
      | zero => intro s; simp only [CRCurve.hazardRate]
      | succ n ih => intro s; simp only [CRCurve.hazardRate, ih, hr]; simp

end

end Dcf
