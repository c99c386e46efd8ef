import Verif.Lemmas.Curve
import Verif.Model.RateCurve
import Verif.Spec.Rates
import Mathlib.Tactic.NormNum

/-! # Interest rate curves: C28-C31, C33-C35 -/

set_option linter.unusedSectionVars false
set_option linter.unusedSimpArgs false
set_option linter.unusedVariables false

namespace Dcf

open Spec

section
variable {D P : Type} [LinearOrder D] (cal : Cal D P)

/-- The curve returns a number `v x` for every date, counts time by the additive day count `τ` and
has origin `o`.  Any interpolation, spread and fixings are allowed. -/
structure Answers (c : IRCurve D P) (v : D → ℝ) (τ : D → D → ℝ) (o : D) : Prop where
  call : ∀ x, c.call cal x = .ok (v x)
  dayCount : ∀ s e, c.dayCount cal s e = .ok (τ s e)
  good : GoodDayCount τ
  origin : c.base.origin = some o

variable {cal} {c : IRCurve D P} {v : D → ℝ} {τ : D → D → ℝ} {o : D}

theorem zeroForward_eq (h : Answers cal c v τ o) {s t : D} (hst : s ≠ t) :
    c.zeroForward cal s t = .ok ((v t * τ o t - v s * τ o s) / τ s t) := by
  simp [IRCurve.zeroForward, h.origin, pyDate, h.call, h.dayCount, pyDiv_ok (h.good.ne_zero hst)]

theorem zeroRate_eq (h : Answers cal c v τ o) (hc : c.cls = .zero) {same : Bool} {s t : D} (hst : s ≠ t)
    (hs : same = true → s = o) :
    c.rate cal same s t = .ok ((v t * τ o t - v s * τ o s) / τ s t) := by
  simp only [IRCurve.rate, hc, IRCurve.zeroRateOf, hst, false_and, if_false]
  cases same with
  | true =>
    obtain rfl := hs rfl
    simp only [if_true, h.call, h.good.self, mul_zero, sub_zero, mul_div_assoc]
    rw [div_self (h.good.ne_zero hst), mul_one]
  | false => simpa using zeroForward_eq h hst

theorem factor_of_rate (h : Answers cal c v τ o) (hc : c.cls ≠ .discount) (same : Bool) {s t : D} (hst : s ≠ t) :
    c.factor cal same s t = (fun z => Real.exp (-(z * τ s t))) <$> c.rate cal same s t := by
  have e : c.factor cal same s t = (do
      let ir ← c.rate cal same s t
      let t ← c.dayCount cal s t
      continuousCompounding ir t) := by
    unfold IRCurve.factor
    cases hcl : c.cls <;> simp_all
  rw [e]
  cases c.rate cal same s t with
  | error x => rfl
  | ok z => simp only [Py.ok_bind, h.dayCount, continuousCompounding, Py.map_ok]; congr 2; ring

/-- For every class but `DiscountFactorCurve` nothing is discounted over an empty period. -/
theorem C28_empty (hc : c.cls ≠ .discount) (same : Bool) (t : D) : c.factor cal same t t = .ok 1 := by
  unfold IRCurve.factor
  cases hcl : c.cls <;> simp_all

/-- C28 (zero rates): discount factors are positive, 1 over an empty period and multiply over adjacent
periods, for every order of the dates and whether or not dates are the origin object. -/
theorem C28_zero (h : Answers cal c v τ o) (hc : c.cls = .zero) :
    ∃ df : D → D → ℝ, DiscountLaws df ∧ (∀ s t, df s t = Real.exp (v s * τ o s - v t * τ o t)) ∧
      (∀ same s t, (same = true → s = o) → c.factor cal same s t = .ok (df s t)) ∧
      ∀ t, c.discount cal t = .ok (df o t) := by
  have key : ∀ same s t, (same = true → s = o) →
      c.factor cal same s t = .ok (Real.exp (v s * τ o s - v t * τ o t)) := by
    intro same s t hs
    by_cases hst : s = t
    · subst hst; rw [C28_empty (by simp [hc]), sub_self, Real.exp_zero]
    · rw [factor_of_rate h (by simp [hc]) same hst, zeroRate_eq h hc hst hs, Py.map_ok,
        div_mul_cancel₀ _ (h.good.ne_zero hst), neg_sub]
  refine ⟨fun s t => Real.exp (v s * τ o s - v t * τ o t), ⟨?_, ?_, ?_⟩, fun _ _ => rfl, key, ?_⟩
  · intro t; simp
  · intro s t u; rw [← Real.exp_add]; congr 1; ring
  · intro s t; exact Real.exp_pos _
  · intro t; simp only [IRCurve.discount, h.origin, pyDate, Py.ok_bind]; exact key true o t fun _ => rfl

/-- C28 (discount factors): the same if the curve is 1 at the origin and positive. -/
theorem C28_discount (h : Answers cal c v τ o) (hc : c.cls = .discount) (h1 : v o = 1) (hv : ∀ x, 0 < v x) :
    ∃ df : D → D → ℝ, DiscountLaws df ∧ (∀ s t, df s t = v t / v s) ∧
      (∀ same s t, (same = true → s = o) → c.factor cal same s t = .ok (df s t)) ∧
      ∀ t, c.discount cal t = .ok (df o t) := by
  have key : ∀ same s t, (same = true → s = o) → c.factor cal same s t = .ok (v t / v s) := by
    intro same s t hs
    simp only [IRCurve.factor, hc, IRCurve.discountFactorOf]
    cases same with
    | true => obtain rfl := hs rfl; simp [h.call, h1]
    | false => simp [h.call, pyDiv_ok (hv s).ne']
  refine ⟨fun s t => v t / v s, ⟨?_, ?_, ?_⟩, fun _ _ => rfl, key, ?_⟩
  · intro t; exact div_self (hv t).ne'
  · intro s t u; have := (hv t).ne'; have := (hv s).ne'; field_simp
  · intro s t; exact div_pos (hv t) (hv s)
  · intro t; simp only [IRCurve.discount, h.origin, pyDate, Py.ok_bind]; exact key true o t fun _ => rfl

/-- C28 (discount factors, multiplication without the origin object): a non-zero curve is enough. -/
theorem C28_discount_adjacent (h : Answers cal c v τ o) (hc : c.cls = .discount) (hv : ∀ x, v x ≠ 0) (s t u : D) :
    ∃ a b, c.factor cal false s t = .ok a ∧ c.factor cal false t u = .ok b ∧
      c.factor cal false s u = .ok (a * b) ∧ c.factor cal false s s = .ok 1 := by
  have key : ∀ s t, c.factor cal false s t = .ok (v t / v s) := by
    intro s t
    simp [IRCurve.factor, hc, IRCurve.discountFactorOf, h.call, pyDiv_ok (hv s)]
  refine ⟨_, _, key s t, key t u, ?_, ?_⟩
  · rw [key]; congr 1; have := hv s; have := hv t; field_simp
  · rw [key, div_self (hv s)]

/-- C28 (discount factors, what goes wrong): with a value other than 1 at the origin the discount factor
from the origin to itself is that value. -/
theorem C28_discount_origin_violated (h : Answers cal c v τ o) (hc : c.cls = .discount) (h1 : v o ≠ 1) :
    ∃ x, c.discount cal o = .ok x ∧ x ≠ 1 :=
  ⟨v o, by simp [IRCurve.discount, h.origin, pyDate, IRCurve.factor, hc, IRCurve.discountFactorOf, h.call], h1⟩

/-- C29: for every curve class zero rate and discount factor over a non-empty period are related by
`df = exp(-z τ)`; one exists if and only if the other does, except that a non-positive discount factor has
no zero rate (`ValueError`). -/
theorem C29_relation (h : Answers cal c v τ o) (same : Bool) {s t : D} (hst : s ≠ t) :
    (∃ z, c.rate cal same s t = .ok z ∧ c.factor cal same s t = .ok (Real.exp (-(z * τ s t)))) ∨
    (∃ e, c.rate cal same s t = .error e ∧ c.factor cal same s t = .error e) ∨
    (∃ df ≤ 0, c.factor cal same s t = .ok df ∧ c.rate cal same s t = .error .value) := by
  by_cases hc : c.cls = .discount
  · have e : c.rate cal same s t = (do
        let df ← c.factor cal same s t
        continuousRate df (τ s t)) := by
      simp [IRCurve.rate, IRCurve.factor, hc, IRCurve.discountRateOf, hst, h.dayCount]
    rw [e]
    cases c.factor cal same s t with
    | error x => exact .inr (.inl ⟨x, rfl, rfl⟩)
    | ok df =>
      have hτ := h.good.ne_zero hst
      rcases le_or_gt df 0 with hd | hd
      · exact .inr (.inr ⟨df, hd, rfl, by simp [continuousRate, pyLog_error hd]⟩)
      · refine .inl ⟨-Real.log df / τ s t, by simp [continuousRate, pyLog_ok hd, pyDiv_ok hτ], ?_⟩
        rw [div_mul_cancel₀ _ hτ, neg_neg, Real.exp_log hd]
  · rw [factor_of_rate h hc same hst]
    cases c.rate cal same s t with
    | error x => exact .inr (.inl ⟨x, rfl, rfl⟩)
    | ok z => exact .inl ⟨z, rfl, rfl⟩

/-- C29 (averages): zero rates of zero rate curves, and of discount factor curves that are positive and 1 at
the origin, are time-weighted averages of the rates of the parts of a period. -/
theorem C29_average (h : Answers cal c v τ o)
    (hc : c.cls = .zero ∨ c.cls = .discount ∧ v o = 1 ∧ ∀ x, 0 < v x) :
    ∃ z : D → D → ℝ, Averages z τ ∧
      ∀ same s t, s ≠ t → (same = true → s = o) → c.rate cal same s t = .ok (z s t) := by
  rcases hc with hc | ⟨hc, h1, hv⟩
  · refine ⟨fun s t => (v t * τ o t - v s * τ o s) / τ s t, ?_, fun same s t hst hs => zeroRate_eq h hc hst hs⟩
    have key : ∀ s t, (v t * τ o t - v s * τ o s) / τ s t * τ s t = v t * τ o t - v s * τ o s := by
      intro s t
      by_cases hst : s = t
      · subst hst; simp [h.good.self]
      · rw [div_mul_cancel₀ _ (h.good.ne_zero hst)]
    intro s t u
    simp only [key]; ring
  · refine ⟨fun s t => -(Real.log (v t) - Real.log (v s)) / τ s t, ?_, fun same s t hst hs => ?_⟩
    · have key : ∀ s t, -(Real.log (v t) - Real.log (v s)) / τ s t * τ s t = -(Real.log (v t) - Real.log (v s)) := by
        intro s t
        by_cases hst : s = t
        · subst hst; simp [h.good.self]
        · rw [div_mul_cancel₀ _ (h.good.ne_zero hst)]
      intro s t u
      simp only [key]; ring
    · obtain ⟨df, -, hdf, hf, -⟩ := C28_discount h hc h1 hv
      rcases C29_relation h same hst with ⟨z, hz, hz'⟩ | ⟨e, he, he'⟩ | ⟨x, hx, hx', -⟩
      · rw [hz]
        rw [hf same s t hs, hdf] at hz'
        have := congrArg Real.log (Except.ok.inj hz')
        rw [Real.log_exp, Real.log_div (hv t).ne' (hv s).ne'] at this
        show Except.ok z = Except.ok (-(Real.log (v t) - Real.log (v s)) / τ s t)
        rw [this, neg_neg, mul_div_assoc, div_self (h.good.ne_zero hst), mul_one]
      · rw [hf same s t hs] at he'; cases he'
      · rw [hf same s t hs, hdf] at hx'
        have := div_pos (hv t) (hv s)
        rw [Except.ok.inj hx'] at this
        exact absurd hx this.not_ge

/-- C30 (zero rates): the results for the origin object and for an equal date agree. -/
theorem C30_zero (h : Answers cal c v τ o) (hc : c.cls = .zero) (t : D) :
    c.factor cal true o t = c.factor cal false o t ∧ c.rate cal true o t = c.rate cal false o t := by
  obtain ⟨df, -, -, hf, -⟩ := C28_zero h hc
  refine ⟨by rw [hf true o t fun _ => rfl, hf false o t (by simp)], ?_⟩
  by_cases ht : o = t
  · subst ht; simp [IRCurve.rate, hc, IRCurve.zeroRateOf, h.origin]
  · rw [zeroRate_eq h hc ht fun _ => rfl, zeroRate_eq h hc ht (by simp)]

/-- C30 (short and cash rates): identity is never looked at. -/
theorem C30_short_cash (hc : c.cls = .short ∨ c.cls = .cash) (s t : D) :
    c.factor cal true s t = c.factor cal false s t ∧ c.rate cal true s t = c.rate cal false s t := by
  rcases hc with hc | hc <;> simp [IRCurve.factor, IRCurve.rate, hc]

/-- C30 (discount factors, what holds): the two results agree exactly if the curve is 1 at the origin
(or vanishes at the end date). -/
theorem C30_discount_partial (h : Answers cal c v τ o) (hc : c.cls = .discount) (t : D) :
    c.factor cal true o t = c.factor cal false o t ↔ v o = 1 ∨ (v t = 0 ∧ v o ≠ 0) := by
  simp only [IRCurve.factor, hc, IRCurve.discountFactorOf, h.call, if_true, Py.ok_bind, Bool.false_eq_true,
    if_false, pyDiv]
  split_ifs with h0
  · simp [h0]
  · rw [Except.ok.injEq, eq_div_iff h0]
    constructor
    · intro e
      by_cases ht : v t = 0
      · exact .inr ⟨ht, h0⟩
      · exact .inl (mul_left_cancel₀ ht (by rw [e, mul_one]))
    · rintro (e | ⟨e, -⟩)
      · rw [e, mul_one]
      · rw [e, zero_mul]

/-- The cash rate of classes that derive it from discount factors. -/
theorem cashRate_eq (h : Answers cal c v τ o) (hc : c.cls ≠ .cash) (same : Bool) (limit : ℕ) {s e : D}
    {stop : Option D} {step : Option P} (he : c.cashStop cal s stop step = .ok e) :
    c.cashRate cal same (limit + 1) s stop step = (do
      let df ← c.factor cal same s e
      simpleRate df (τ s e)) := by
  unfold IRCurve.cashRate
  rw [he, Py.ok_bind]
  cases hcl : c.cls <;> simp_all [h.dayCount]

/-- The end date a cash rate refers to, as documented: the given end, or start plus period, or start plus
the curve's tenor; end and period together must agree. -/
inductive CashEnd (c : IRCurve D P) (cal : Cal D P) (s : D) : Option D → Option P → D → Prop
  | stop (e : D) : CashEnd c cal s (some e) none e
  | step (p : P) (e : D) (h : cal.add s p = .ok e) : CashEnd c cal s none (some p) e
  | tenor (e : D) (h : cal.add s (c.tenor.getD cal.threeMonths) = .ok e) : CashEnd c cal s none none e
  | both (e : D) (p : P) (h : cal.add s p = .ok e) : CashEnd c cal s (some e) (some p) e

theorem CashEnd.stop_eq {s e : D} {stop : Option D} {step : Option P} (h : CashEnd c cal s stop step e) :
    c.cashStop cal s stop step = .ok e := by
  cases h with
  | stop => rfl
  | step p _ h => exact h
  | tenor _ h => exact h
  | both _ p h => simp only [IRCurve.cashStop, h, Py.ok_bind]; split_ifs <;> simp_all

/-- C31: on curves storing discount factors, zero rates or short rates the cash rate satisfies
`(1 + f τ) df = 1`; it exists for every non-empty period with non-zero discount factor. -/
theorem C31_relation (h : Answers cal c v τ o) (hc : c.cls ≠ .cash) (same : Bool) (limit : ℕ) {s e : D}
    {stop : Option D} {step : Option P} (he : CashEnd c cal s stop step e) (hse : s ≠ e) {df : ℝ}
    (hdf : c.factor cal same s e = .ok df) (h0 : df ≠ 0) :
    ∃ f, c.cashRate cal same (limit + 1) s stop step = .ok f ∧ (1 + f * τ s e) * df = 1 := by
  have hτ := h.good.ne_zero hse
  refine ⟨(1 / df - 1) / τ s e, ?_, ?_⟩
  · rw [cashRate_eq h hc same limit he.stop_eq, hdf]
    simp [simpleRate, pyDiv_ok h0, pyDiv_ok hτ]
  · rw [div_mul_cancel₀ _ hτ]; field_simp; ring

/-- C31 (empty periods): no cash rate. -/
theorem C31_empty (h : Answers cal c v τ o) (hc : c.cls = .zero ∨ c.cls = .short) (same : Bool) (limit : ℕ) (s : D) :
    c.cashRate cal same (limit + 1) s (some s) none = .error .zeroDivision := by
  have hc' : c.cls ≠ .cash := by rcases hc with h | h <;> simp [h]
  rw [cashRate_eq h hc' same limit (CashEnd.stop s).stop_eq,
    C28_empty (by rcases hc with h | h <;> simp [h]), h.good.self]
  simp [simpleRate, pyDiv]

/-- C31 (contradicting end and period): rejected, unless one of them is false in a boolean context. -/
theorem C31_conflict (same : Bool) (limit : ℕ) {s e x : D} {p : P} (hx : cal.add s p = .ok x) (hne : x ≠ e)
    (h1 : cal.falsy e = false) (h2 : cal.falsyPeriod p = false) :
    c.cashRate cal same (limit + 1) s (some e) (some p) = .error .assertion := by
  unfold IRCurve.cashRate
  have : c.cashStop cal s (some e) (some p) = .error .assertion := by
    simp [IRCurve.cashStop, hx, hne, h1, h2]
  rw [this]; rfl

/-- C31 (contradicting end and period, what goes wrong): a false end date or period is not checked. -/
theorem C31_conflict_violated (h : Answers cal c v τ o) (hc : c.cls ≠ .cash) (same : Bool) (limit : ℕ) {s e : D} {p : P}
    (hf : cal.falsy e = true ∨ cal.falsyPeriod p = true) (hse : s ≠ e) {df : ℝ}
    (hdf : c.factor cal same s e = .ok df) (h0 : df ≠ 0) :
    ∃ f, c.cashRate cal same (limit + 1) s (some e) (some p) = .ok f := by
  have hτ := h.good.ne_zero hse
  have he : c.cashStop cal s (some e) (some p) = .ok e := by
    rcases hf with hf | hf <;> simp [IRCurve.cashStop, hf]
  refine ⟨(1 / df - 1) / τ s e, ?_⟩
  rw [cashRate_eq h hc same limit he, hdf]
  simp [simpleRate, pyDiv_ok h0, pyDiv_ok hτ]

/-! ### Short rates -/

theorem minDate_eq {l : List D} {m : D} (hm : m ∈ l) (h : ∀ x ∈ l, m ≤ x) : minDate l = .ok m := by
  unfold minDate
  rw [List.min?_eq_some_iff.2 ⟨hm, h⟩]

theorem maxDate_eq {l : List D} {m : D} (hm : m ∈ l) (h : ∀ x ∈ l, x ≤ m) : maxDate l = .ok m := by
  unfold maxDate
  rw [List.max?_eq_some_iff.2 ⟨hm, h⟩]

/-- Neighbouring grid dates `a ≤ x < b`. -/
structure Around (dom : List D) (x a b : D) : Prop where
  mema : a ∈ dom
  memb : b ∈ dom
  le : a ≤ x
  lt : x < b
  between : ∀ d ∈ dom, d ≤ a ∨ b ≤ d

/-- C33 (inside the grid): the short rate at a date is the zero rate between the neighbouring grid dates. -/
theorem C33_inside (hc : c.cls ≠ .short) (same : Bool) (limit : ℕ) {x a b : D} (hx : Around c.base.domain x a b) :
    c.shortRate cal same (limit + 1) x = c.rate cal same a b := by
  have hne : c.base.domain ≠ [] := List.ne_nil_of_mem hx.mema
  obtain ⟨lo, hlo, hlo'⟩ : ∃ m ∈ c.base.domain, ∀ y ∈ c.base.domain, m ≤ y := by
    obtain ⟨m, hm⟩ := Option.isSome_iff_exists.1 (List.isSome_min?_of_ne_nil hne)
    exact ⟨m, List.min?_eq_some_iff.1 hm⟩
  obtain ⟨hi, hhi, hhi'⟩ : ∃ m ∈ c.base.domain, ∀ y ∈ c.base.domain, y ≤ m := by
    obtain ⟨m, hm⟩ := Option.isSome_iff_exists.1 (List.isSome_max?_of_ne_nil hne)
    exact ⟨m, List.max?_eq_some_iff.1 hm⟩
  have e1 : maxDate (c.base.domain.filter (· ≤ x)) = .ok a := by
    apply maxDate_eq
    · simp [hx.mema, hx.le]
    · intro y hy
      simp only [List.mem_filter, decide_eq_true_eq] at hy
      rcases hx.between y hy.1 with h | h
      · exact h
      · exact absurd (hx.lt.trans_le h) hy.2.not_gt
  have e2 : minDate (c.base.domain.filter (x < ·)) = .ok b := by
    apply minDate_eq
    · simp [hx.memb, hx.lt]
    · intro y hy
      simp only [List.mem_filter, decide_eq_true_eq] at hy
      rcases hx.between y hy.1 with h | h
      · exact absurd (h.trans hx.le) hy.2.not_ge
      · exact h
  have n1 : ¬ x < lo := not_lt.2 ((hlo' a hx.mema).trans hx.le)
  have n2 : ¬ hi ≤ x := not_le.2 (hx.lt.trans_le (hhi' b hx.memb))
  unfold IRCurve.shortRate
  cases hcl : c.cls with
  | short => exact absurd hcl hc
  | _ => simp [minDate_eq hlo hlo', maxDate_eq hhi hhi', n1, n2, e1, e2, hx.le, not_lt.2 hx.lt.le,
      not_le.2 (hx.le.trans_lt hx.lt)]

/-- C33 (short rate curves): the stored value. -/
theorem C33_short (hc : c.cls = .short) (same : Bool) (limit : ℕ) (x : D) :
    c.shortRate cal same (limit + 1) x = c.call cal x := by
  unfold IRCurve.shortRate; simp [hc]

theorem exists_around {dom : List D} {x lo hi : D} (hlo : lo ∈ dom) (hhi : hi ∈ dom) (h1 : lo ≤ x)
    (h2 : x < hi) : ∃ a b, Around dom x a b := by
  have hA : dom.filter (· ≤ x) ≠ [] := List.ne_nil_of_mem (List.mem_filter.2 ⟨hlo, by simpa using h1⟩)
  have hB : dom.filter (x < ·) ≠ [] := List.ne_nil_of_mem (List.mem_filter.2 ⟨hhi, by simpa using h2⟩)
  obtain ⟨a, ha⟩ := Option.isSome_iff_exists.1 (List.isSome_max?_of_ne_nil hA)
  obtain ⟨b, hb⟩ := Option.isSome_iff_exists.1 (List.isSome_min?_of_ne_nil hB)
  obtain ⟨ha1, ha2⟩ := List.max?_eq_some_iff.1 ha
  obtain ⟨hb1, hb2⟩ := List.min?_eq_some_iff.1 hb
  simp only [List.mem_filter, decide_eq_true_eq] at ha1 hb1 ha2 hb2
  refine ⟨a, b, ha1.1, hb1.1, ha1.2, hb1.2, fun d hd => ?_⟩
  rcases le_or_gt d x with h | h
  · exact .inl (ha2 d ⟨hd, h⟩)
  · exact .inr (hb2 d ⟨hd, h⟩)

/-- C33 (partial): on a grid whose last date, moved back by one day, is not before its first date the
short rate is defined for every date with at most three nested calls: it is the zero rate between two
neighbouring grid dates; outside the grid it is continued flat. -/
theorem C33_partial (hc : c.cls ≠ .short) (same : Bool) (limit : ℕ) {lo hi d : D} (hlo : lo ∈ c.base.domain)
    (hhi : hi ∈ c.base.domain) (hmin : ∀ y ∈ c.base.domain, lo ≤ y) (hmax : ∀ y ∈ c.base.domain, y ≤ hi)
    (hd : cal.sub hi cal.oneDay = .ok d) (h1 : lo ≤ d) (h2 : d < hi) (x : D) :
    ∃ a ∈ c.base.domain, ∃ b ∈ c.base.domain, a < b ∧
      c.shortRate cal same (limit + 3) x = c.rate cal same a b ∧
      (x < lo → c.shortRate cal same (limit + 3) x = c.shortRate cal same (limit + 3) lo) ∧
      (hi ≤ x → c.shortRate cal same (limit + 3) x = c.shortRate cal same (limit + 3) d) := by
  have hlh : lo < hi := h1.trans_lt h2
  have inside : ∀ n x, lo ≤ x → x < hi → ∃ a b, Around c.base.domain x a b ∧
      c.shortRate cal same (n + 1) x = c.rate cal same a b := by
    intro n x hx1 hx2
    obtain ⟨a, b, h⟩ := exists_around hlo hhi hx1 hx2
    exact ⟨a, b, h, C33_inside hc same n h⟩
  have low : ∀ n x, x < lo → c.shortRate cal same (n + 1) x = c.shortRate cal same n lo := by
    intro n x hx
    conv_lhs => unfold IRCurve.shortRate
    cases hcl : c.cls with
    | short => exact absurd hcl hc
    | _ => simp [minDate_eq hlo hmin, hx]
  have high : ∀ n x, hi ≤ x → c.shortRate cal same (n + 1) x = c.shortRate cal same n d := by
    intro n x hx
    conv_lhs => unfold IRCurve.shortRate
    cases hcl : c.cls with
    | short => exact absurd hcl hc
    | _ => simp [minDate_eq hlo hmin, maxDate_eq hhi hmax, hx, not_lt.2 (hlh.le.trans hx), hd]
  have stable : ∀ n m x, lo ≤ x → x < hi → c.shortRate cal same (n + 1) x = c.shortRate cal same (m + 1) x := by
    intro n m x hx1 hx2
    obtain ⟨a, b, h⟩ := exists_around hlo hhi hx1 hx2
    rw [C33_inside hc same n h, C33_inside hc same m h]
  rcases lt_or_ge x lo with hx | hx
  · obtain ⟨a, b, hab, e⟩ := inside (limit + 1) lo le_rfl hlh
    refine ⟨a, hab.mema, b, hab.memb, hab.le.trans_lt hab.lt, (low _ x hx).trans e, fun _ => ?_, fun h => ?_⟩
    · rw [low _ x hx]; exact stable _ _ lo le_rfl hlh
    · exact absurd (hlh.le.trans h) hx.not_ge
  · rcases lt_or_ge x hi with hx2 | hx2
    · obtain ⟨a, b, hab, e⟩ := inside (limit + 2) x hx hx2
      exact ⟨a, hab.mema, b, hab.memb, hab.le.trans_lt hab.lt, e, fun h => absurd h hx.not_gt,
        fun h => absurd h hx2.not_ge⟩
    · obtain ⟨a, b, hab, e⟩ := inside (limit + 1) d h1 h2
      refine ⟨a, hab.mema, b, hab.memb, hab.le.trans_lt hab.lt, (high _ x hx2).trans e,
        fun h => absurd h hx.not_gt, fun _ => ?_⟩
      rw [high _ x hx2]; exact stable _ _ d h1 h2

/-- C33 (refuted on a single date): whatever the recursion limit, no date has a short rate. -/
theorem C33_single_violated (hc : c.cls ≠ .short) (same : Bool) {g d : D} (hg : c.base.domain = [g])
    (hd : cal.sub g cal.oneDay = .ok d) (hlt : d < g) (limit : ℕ) (x : D) :
    c.shortRate cal same limit x = .error .recursion := by
  have hlo := minDate_eq (l := c.base.domain) (m := g) (by simp [hg]) (by simp [hg])
  have hhi := maxDate_eq (l := c.base.domain) (m := g) (by simp [hg]) (by simp [hg])
  induction limit generalizing x with
  | zero => rfl
  | succ n ih =>
    unfold IRCurve.shortRate
    rcases lt_or_ge x g with h | h
    · cases hcl : c.cls with
      | short => exact absurd hcl hc
      | _ => simp [hlo, h, ih]
    · cases hcl : c.cls with
      | short => exact absurd hcl hc
      | _ => simp [hlo, hhi, not_lt.2 h, h, hd, ih]

/-! ### Cash rate curves -/

/-- C34 (partial): for the curve's own tenor the cash rate is the stored value. -/
theorem C34_partial (hc : c.cls = .cash) (same : Bool) (limit : ℕ) {s e : D} {stop : Option D} {step : Option P}
    (he : CashEnd c cal s stop step e) (ht : cal.add s (c.tenor.getD cal.threeMonths) = .ok e) :
    c.cashRate cal same (limit + 1) s stop step = c.call cal s := by
  unfold IRCurve.cashRate
  rw [he.stop_eq]
  simp [hc, IRCurve.forwardTenor, ht]

/-- C34 (refuted): for any other period no recursion limit is enough. -/
theorem C34_violated (hc : c.cls = .cash) (same : Bool) {s e x : D} {stop : Option D} {step : Option P}
    (he : CashEnd c cal s stop step e) (hx : cal.add s (c.tenor.getD cal.threeMonths) = .ok x) (hne : e ≠ x)
    (limit : ℕ) : c.cashRate cal same limit s stop step = .error .recursion := by
  induction limit generalizing stop step with
  | zero => rfl
  | succ n ih =>
    unfold IRCurve.cashRate
    rw [he.stop_eq]
    simp [hc, IRCurve.forwardTenor, hx, hne, ih (CashEnd.stop e)]

/-! ### Swap annuity -/

private theorem zip_self_tail (l : List D) : l.dropLast.zip l = l.dropLast.map fun d => (d, d) := by
  induction l with
  | nil => rfl
  | cons a l ih =>
    cases l with
    | nil => rfl
    | cons b l => rw [List.dropLast_cons_cons, List.zip_cons_cons, ih, List.map_cons]

/-- C35 (what holds): the annuity is 0 for every date list. -/
theorem C35_partial (h : Answers cal c v τ o) (dates : List D) (hdf : ∀ d ∈ dates, ∃ y, c.discount cal d = .ok y) :
    c.swapAnnuity cal dates = .ok 0 := by
  have key : pyMap (fun p : D × D => do
      let df ← c.discount cal p.2
      let t ← c.dayCount cal p.1 p.2
      .ok (df * t)) (dates.dropLast.zip dates) = .ok ((dates.dropLast.zip dates).map fun _ => (0 : ℝ)) := by
    apply pyMap_ok
    intro p hp
    rw [zip_self_tail] at hp
    obtain ⟨d, hd, rfl⟩ := List.mem_map.1 hp
    obtain ⟨y, hy⟩ := hdf d (List.mem_of_mem_dropLast hd)
    simp [hy, h.dayCount, h.good.self]
  simp only [IRCurve.swapAnnuity]
  rw [key]
  simp

/-- C35 (refuted): for two or more increasing dates and positive discount factors the accrual-weighted sum
is positive, so it is never what the code returns. -/
theorem C35_violated (h : Answers cal c v τ o) (dates : List D) (hs : dates.Pairwise (· < ·)) (h2 : 2 ≤ dates.length)
    (df : D → ℝ) (hdf : ∀ d, c.discount cal d = .ok (df d)) (hpos : ∀ d, 0 < df d) :
    c.swapAnnuity cal dates ≠ .ok (annuity df τ dates) := by
  rw [C35_partial h dates fun d _ => ⟨_, hdf d⟩]
  intro e
  have nonneg : ∀ l : List D, l.Pairwise (· < ·) → 0 ≤ annuity df τ l := by
    intro l
    induction l with
    | nil => intro _; simp [annuity]
    | cons a l ih =>
      intro hl
      cases l with
      | nil => simp [annuity]
      | cons b l =>
        have hab : a < b := (List.pairwise_cons.1 hl).1 b (by simp)
        exact add_nonneg (mul_nonneg (hpos b).le (h.good.nonneg hab.le)) (ih (List.pairwise_cons.1 hl).2)
  match dates, hs, h2 with
  | a :: b :: l, hs, _ =>
    have hab : a < b := (List.pairwise_cons.1 hs).1 b (by simp)
    have := nonneg (b :: l) (List.pairwise_cons.1 hs).2
    have hp := mul_pos (hpos b) ((h.good.pos a b).2 hab)
    have := Except.ok.inj e
    simp only [annuity] at this
    linarith

end

end Dcf
