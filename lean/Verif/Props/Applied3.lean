import Verif.Props.RoundedDates
import Verif.Props.RoundedLegs
import Verif.Props.RoundedBracket
import Verif.Props.Payoff
import Verif.Props.PayoffDetails
import Verif.Props.OwnInterp
import Verif.Props.Applied
import Verif.Props.Applied2
import Verif.Props.Containers
import Verif.Props.PlanForms
import Verif.Props.Plans
import Verif.Props.Derived
import Verif.Props.CreditArith
import Verif.Props.Products
import Verif.Props.RateArith
import Verif.Props.RateCast
import Verif.Props.RateExtra
import Verif.Props.RateShift
import Verif.Props.Rebuild
import Verif.Props.Refine
import Verif.Props.Session
import Verif.Props.RatingNames
import Verif.Props.PresentValue
import Verif.Props.PriceYield
import Verif.Props.RollForward
import Verif.Props.Delta

/-! # Theorems applied to concrete data: floating point numbers, details of payoffs, own interpolations -/

set_option linter.unusedSectionVars false
set_option linter.unusedSimpArgs false
set_option linter.unusedVariables false

namespace Dcf

open Spec

/-! ### Floating point numbers: 53 bits, any rule for ties (there are some, `exists_rounding`) -/

section
variable {rnd : ℝ → ℝ} (R : Rounding 53 rnd)

theorem exFloat_half : IsFloat 53 (1 / 2 : ℝ) := ⟨1, -1, by norm_num, by norm_num⟩
theorem exFloat_quarter : IsFloat 53 (1 / 4 : ℝ) := ⟨1, -2, by norm_num, by norm_num⟩
theorem exFloat_two : IsFloat 53 (2 : ℝ) := ⟨1, 1, by norm_num, by norm_num⟩

example := C172_separates R (by norm_num) (o := 0) (a := 30) (b := 31) (by norm_num) (T := 1) (by norm_num) (by norm_num) (by norm_num)

/-- A curve of two rates, one year apart. -/
theorem exFloatRates : ∀ a ∈ [((0 : ℤ), (1 / 4 : ℝ)), (365, 1 / 2)], IsFloat 53 a.2 := by
  simp only [List.mem_cons, List.not_mem_nil, or_false, forall_eq_or_imp, forall_eq]
  exact ⟨exFloat_quarter, exFloat_half⟩

example := C172_discount R (by norm_num) (exp := Real.exp) (v := 0) (by simp) (pts := [(0, 1 / 4), (365, 1 / 2)]) (o? := none) (o := 0) (tenor := none) (by simp) (by simp) rfl
  exFloatRates (M := 1) (T := 1) (by norm_num) (by norm_num) (by norm_num)
example := C172_present_value R (by norm_num) (exp := Real.exp) (v := 0) (by simp) (pts := [(0, 1 / 4), (365, 1 / 2)]) (o? := none) (o := 0) (tenor := none) (by simp) (by simp) rfl
  exFloatRates (M := 1) (T := 1) (by norm_num) (by norm_num) (by norm_num)
example := C172_unrounded (pts := [(0, 1 / 4), (365, 1 / 2)]) (o? := none) (o := 0) (tenor := none) (by simp) (by simp) rfl
example := C169_unrounded (cal := dayCal) (pts := [(0, 1 / 4), (365, 1 / 2)]) (o? := none) (dc := .default) (o := 0) (tenor := none) (by simp) (by simp) rfl trivial goodDayCount_int
example := C169_discount R (by norm_num) (exp := Real.exp) (v := 0) (by simp) (cal := dayCal) (pts := [(0, 1 / 4), (365, 1 / 2)]) (o? := none) (dc := .default) (o := 0) (tenor := none)
  (by simp) (by simp) rfl trivial goodDayCount_int exFloatRates (M := 1) (T := 1) (by norm_num)
example := C169_value R (by norm_num) (exp := Real.exp) (v := 0) (by simp) (cal := dayCal) (pts := [(0, 1 / 4), (365, 1 / 2)]) (o? := none) (dc := .default) (o := 0) (tenor := none)
  (by simp) (by simp) rfl trivial goodDayCount_int exFloatRates (M := 1) (T := 1) (by norm_num)
example := C171_refuses R (by norm_num) (fun x => x - 1) (1 / 4) (limit := 10) (by norm_num) (a := 0) (b := 2) (by norm_num) IsFloat.zero exFloat_two

/-- The bracketing of `x - 1` between 1/2 and 2 with precision 2. -/
example : ∃ r, Rounded.bracket rnd 2 1 (fun x => .ok (x - 1)) (1 / 2) 2 = .ok r ∧ 1 / 2 ≤ r.1 ∧ r.2.2 ≤ 2 := by
  have f : IsFloat 53 (3 / 2 : ℝ) := ⟨3, -1, by norm_num, by norm_num⟩
  have h : Rounded.bracket rnd 2 1 (fun x => .ok (x - 1)) (1 / 2) 2 = .ok (1 / 2, rnd (1 / 2 + rnd (rnd (2 - 1 / 2) * (1 / 2))), 2) := by
    rw [Rounded.bracket]
    have e1 : rnd (2 - 1 / 2) = 3 / 2 := by rw [show (2 : ℝ) - 1 / 2 = 3 / 2 by norm_num]; exact R.eq_self f
    have e2 : rnd ((2 : ℝ) - 1 - (1 / 2 - 1)) = 3 / 2 := by rw [show (2 : ℝ) - 1 - (1 / 2 - 1) = 3 / 2 by norm_num]; exact R.eq_self f
    simp only [Py.ok_bind]
    rw [if_neg (by norm_num : ¬ (2 : ℝ) - 1 < 1 / 2 - 1)]
    simp only [e1, e2]
    rw [if_neg (by norm_num), if_pos (by norm_num [abs_of_pos])]
  obtain ⟨h1, -, -, h4, -⟩ := C171_result R (by norm_num) exFloat_two (by norm_num) exFloat_half exFloat_two h
  exact ⟨_, h, h1, h4⟩

/-- Values 1 and 2 never meet 3/2 with precision `2 ^ -52`. -/
example : ∀ limit, Rounded.bracket rnd ((2 : ℝ) ^ (-52 : ℤ)) limit (fun x => .ok (rnd ((if x < 1 then 1 else 2) - 3 / 2))) 0 2 = .error .recursion := by
  have f : IsFloat 53 (3 / 2 : ℝ) := ⟨3, -1, by norm_num, by norm_num⟩
  refine C171_amounts_violated R (by norm_num) (value := fun x => if x < 1 then 1 else 2) (target := 3 / 2) (e := 0) (by norm_num) (by norm_num) IsFloat.zero exFloat_two f
    (by norm_num [abs_of_pos]) (fun x _ _ _ => ?_) (by norm_num) (by norm_num)
  show IsFloat 53 (if x < 1 then (1 : ℝ) else 2) ∧ _
  split_ifs
  · exact ⟨IsFloat.one (by norm_num), by norm_num⟩
  · exact ⟨exFloat_two, by norm_num⟩

example := C171_yield_exact (N := 100) (precision := 1 / 10000000) (by norm_num) (by norm_num)
example := C167_exact R (by norm_num) (pts := [(0, 1 / 4), (1, 1 / 2)]) (by simp) (by
  simp only [List.mem_cons, List.not_mem_nil, or_false, forall_eq_or_imp, forall_eq]; exact ⟨exFloat_quarter, exFloat_half⟩)
example := C168_outstanding R (by norm_num) (plan := [1 / 4, 1 / 2]) (by
  simp only [List.mem_cons, List.not_mem_nil, or_false, forall_eq_or_imp, forall_eq]; exact ⟨exFloat_quarter, exFloat_half⟩) 2 (k := 1) (by simp)
example := C174_coupon R (by norm_num) (1 / 100) (2 / 100) (1 / 4) 1000000
example := C174_netting_violated R (by norm_num)
example := C174_accrued R (by norm_num) exFloat_two (rem := 1 / 4) (tot := 1) (by norm_num) (by norm_num) (by norm_num)

end

/-- Symmetric rules for ties. -/
example : ∃ rnd, Rounding 53 rnd ∧ Rounded.legsValue rnd [[(1, 1 / 3)], [(1, -(1 / 3))]] = 0 ∧ Rounded.coupon rnd (1 / 100) 0 (1 / 3) (2 * 100) = 2 * Rounded.coupon rnd (1 / 100) 0 (1 / 3) 100 := by
  obtain ⟨rnd, R, h1, h2⟩ := exists_symmetric (p := 53) (by norm_num)
  exact ⟨rnd, R, by simpa using ((C174_opposite R h1).2 [(1, 1 / 3)]).2, (C174_double h2).1 _ _ _ _⟩

example := (C174_unrounded_payoff dayCal (⟨0, 365, 100, none, none, some (1 / 100)⟩ : RatePay ℤ ℤ) rfl).1 (.fwd .none) (none, none) (by simp [RatePay.forwardAt, ModelArg.truthy, Fwd.truthy])

/-! ### Fixed rates of lists -/

/-- Two coupons on 100. -/
noncomputable def exTwoRates (r s : Option ℝ) : CFList ℤ ℤ :=
  ⟨some 0, [365, 730], [(365, .rate ⟨0, 365, 100, none, none, r⟩), (730, .rate ⟨365, 730, 100, none, none, s⟩)], .fwd .none, true⟩

theorem exTwoRates_are (r s : Option ℝ) : (exTwoRates r s).RatesAre [r, s] := .cons (.inl ⟨_, rfl, rfl⟩) (.cons (.inl ⟨_, rfl, rfl⟩) .nil)

example := C50_get (exTwoRates_are (some 0.01) (some 0.01)) (r := some 0.01) (by simp) (by simp)
example := C50_get_none (exTwoRates_are (some 0.01) (some 0.02)) (a := some 0.01) (b := some 0.02) (by simp) (by simp) (by norm_num)
example := C50_set_get (exTwoRates_are (some 0.01) (some 0.02)) (by simp) (some 0.03)

/-! ### Details of options, strategies and rate payoffs -/

theorem exPutTable : ∃ t, (⟨1, 2, some 100, true⟩ : OptPay ℝ).dict floatCal (.fwd .none) = .ok t :=
  ⟨_, by simp only [OptPay.dict, OptPay.cashflow, Fwd.truthy]; rfl⟩

noncomputable def exFlatModel : OptModel ℝ := ⟨some 0, .num 100, .none, none, false, normalFormula codeDist⟩

theorem exFlatModel_details (x : ℝ) (k : Option ℝ) : exFlatModel.details floatCal x k = .ok ⟨some 0, some x, some 100, k.getD 100, none, x⟩ := by
  cases k <;> simp [exFlatModel, OptModel.details, Fwd.optionForward, Fwd.truthy, Vol.eval, OptModel.time, Vol.dayCount, Fwd.dayCount, floatCal]

theorem exFlatModel_call (x : ℝ) (k : Option ℝ) : ∃ v, exFlatModel.callValue floatCal x k = .ok v :=
  ⟨_, by simp only [OptModel.callValue, exFlatModel_details, Py.ok_bind, OptDetails.fwd, OptDetails.flat]; simp; rfl⟩

theorem exFlatModel_put (x : ℝ) (k : Option ℝ) : ∃ v, exFlatModel.putValue floatCal x k = .ok v := by
  obtain ⟨v, hv⟩ := exFlatModel_call x k
  exact ⟨_, by simp only [OptModel.putValue, exFlatModel_details, hv, Py.ok_bind, OptDetails.fwd, OptDetails.flat]; simp; rfl⟩

theorem exFlatModel_option (o : OptPay ℝ) : ∃ x, o.cashflow floatCal (.model exFlatModel) = .ok x := by
  obtain ⟨c, hc⟩ := exFlatModel_call o.expiry o.strike
  obtain ⟨p, hp⟩ := exFlatModel_put o.expiry o.strike
  cases hb : o.isPut <;> exact ⟨_, by simp only [OptPay.cashflow, hb, hc, hp, exFlatModel_details, Py.ok_bind, if_true, Bool.false_eq_true, if_false]; rfl⟩

theorem exCallTable : ∃ t, (⟨1, 2, none, false⟩ : OptPay ℝ).dict floatCal (.model exFlatModel) = .ok t := by
  obtain ⟨x, hx⟩ := exFlatModel_option ⟨1, 2, none, false⟩
  exact ((OptPay.dict_ok floatCal _ (.model exFlatModel)).2 x hx).imp fun _ h => h.1

theorem exSpreadTable : ∃ t, strategyDict floatCal [⟨1, 2, some 100, true⟩, ⟨1, -1, some 110, false⟩] (.model exFlatModel) = .ok t := by
  refine ((PayOff.strategy [⟨1, 2, some 100, true⟩, ⟨1, -1, some 110, false⟩] : PayOff ℝ FloatPeriod).dict_ok floatCal (by simp) (.model exFlatModel)).1.2 ?_
  obtain ⟨x, hx⟩ := exFlatModel_option ⟨1, 2, some 100, true⟩
  obtain ⟨y, hy⟩ := exFlatModel_option ⟨1, -1, some 110, false⟩
  exact ⟨_, by simp only [PayOff.eval, strategyCashflow, pyMap, hx, hy, exFlatModel_details, Py.ok_bind]; rfl⟩

theorem exRateTable : ∃ t, (⟨1, 2, 3, none, none, some (1 / 100)⟩ : RatePay ℝ FloatPeriod).dict floatCal (.fwd (.num 2)) = .ok t :=
  ⟨_, by simp only [RatePay.dict, RatePay.details, RatePay.forwardAt]; simp [ModelArg.truthy, Fwd.truthy, Cal.minus, Fwd.rate, ModelArg.curve]; rfl⟩

theorem exCollarTable : ∃ t, (⟨⟨1, 2, 3, none, none, some (1 / 100)⟩, some 90, some 110⟩ : ContingentRatePay ℝ FloatPeriod).dict floatCal (.model exFlatModel) = .ok t := by
  refine ((PayOff.contingentRate _ : PayOff ℝ FloatPeriod).dict_ok floatCal (by simp) (.model exFlatModel)).1.2 ?_
  have hf : exFlatModel.forward = .num 100 := rfl
  choose vc hc using exFlatModel_call
  choose vp hp using exFlatModel_put
  exact ⟨_, by
    simp only [PayOff.eval, ContingentRatePay.cashflow, RatePay.details, RatePay.forwardAt, ModelArg.curve, hf]
    simp [ModelArg.truthy, Fwd.truthy, Cal.minus, Fwd.rate, ModelArg.curve, pyKey, optlet, exFlatModel_details, hp, hc]
    rfl⟩

example := C147_terms (P := FloatPeriod) exPutTable.choose_spec
example := C147_model exCallTable.choose_spec
example := C147_strategy (P := FloatPeriod) exSpreadTable.choose_spec
example := C147_strategy_model exSpreadTable.choose_spec
example := C147_expiry_violated exSpreadTable.choose_spec
example := C147_collar exCollarTable.choose_spec
example := C147_valuation_violated exCollarTable.choose_spec
example := C147_rate exRateTable.choose_spec

/-! ### Own interpolations -/

example := C165_order (.func exSpikes none) (pts := [(2, 3), (0, 1)]) (pts' := [(0, 1), (2, 3)]) (List.Perm.swap _ _ _)
example : ∃ c d, Curve.new [1, 3] [2, 4] none = .ok c ∧ OwnCurve.new [1, 3] [2, 4] .default = .ok d ∧
    Spec.SameResult (c.binop (· * ·) c) (d.binop (· * ·) d) ∧ Spec.SameResult (c.setitem 2 7) (d.setitem 2 7) := by
  have hi : Spec.SameInterp none .default := rfl
  rcases sameNew hi [1, 3] [2, 4] with ⟨c, d, hc, hd, h⟩ | ⟨e, h, -⟩
  · obtain ⟨-, -, h3, h4, -⟩ := C165_package h h hi
    exact ⟨c, d, hc, hd, h4 _, h3 _ _⟩
  · rw [exPlainPoints] at h
    simp at h
example : ∃ c d, OwnDateCurve.new dayCal [30, 10] [3, 1] (.func exSpikes (some exSpikes)) (some 10) .default linearScheme = .ok c ∧
    c.resample dayCal [30] = .ok d ∧ d.call dayCal 30 = .ok (some 3) := by
  obtain ⟨c, s, h1, h2, -, -, -, h⟩ := C165_dates (cal := dayCal) (r := some exSpikes) (τ := dayCal.dayCount) (o := 10) exSpikes_reproduces (dc := .default)
    (fun a b => rfl) (pts := [(30, 3), (10, 1)]) (by simp [dayCal]; norm_num) linearScheme
  have e : c.dc = .default ∧ c.origin? = some 10 ∧ c.interp = .func exSpikes (some exSpikes) := by
    have h1' := h1
    simp only [OwnDateCurve.new, OwnDateCurve.update, List.map_cons, List.map_nil, List.length_cons, List.length_nil, not_true_eq_false, if_false, Py.pure_eq, Py.ok_bind] at h1'
    obtain ⟨_, -, h1'⟩ := Py.bind_eq_ok.1 h1'
    obtain ⟨⟨_, _⟩, -, h1'⟩ := Py.bind_eq_ok.1 h1'
    obtain rfl := Except.ok.inj h1'
    exact ⟨rfl, rfl, rfl⟩
  obtain ⟨d, -, hd, -, -, -, -, hv⟩ := (C165_dates_resample (cal := dayCal) (X := [30]) (u := fun _ => 3) (τ := dayCal.dayCount) (o := 10) exSpikes_reproduces (dc := .default)
    (fun a b => rfl) e.1 e.2.1 (fun x hx => by
      rw [h2] at hx
      simp only [List.map_cons, List.map_nil, List.mem_cons, List.not_mem_nil, or_false] at hx
      rcases hx with rfl | rfl
      · exact ⟨_, h (30, 3) (by simp)⟩
      · exact ⟨_, h (10, 1) (by simp)⟩) (by simp) (fun x hx => by obtain rfl := List.mem_singleton.1 hx; exact h (30, 3) (by simp))).1 _ e.2.2
  exact ⟨c, d, h1, hd, hv 30 (by simp)⟩
example (c : OwnDateCurve ℤ) := C165_fixings dayCal (c := { c with fixings := Dict.ofPairs [(5, 7)] }) (x := 5) (y := 7) (by simp [Dict.ofPairs, Dict.set, Dict.get])

/-! ### Containers of dates -/

theorem exBox_new {c : DateCurve ℤ} {b : Box} (hc : DateCurve.newBoxed dayCal b [0] [2] none none .default linearScheme = .ok ⟨c, b⟩) :
    DateCurve.new dayCal [0] [2] none none .default linearScheme = .ok c := by
  simp only [DateCurve.newBoxed] at hc
  cases h : DateCurve.new dayCal [0] [2] none none .default linearScheme <;> rw [h] at hc <;> simp at hc
  rw [hc]

example : True := by
  obtain ⟨c, h1, h2, c', h3⟩ := exBox .tuple
  obtain ⟨d, k1, k2, d', k3⟩ := exBox .list
  obtain ⟨s, _, hs, -⟩ := C24_same_origin_partial dayCal goodDayCount_int [(0, 2)] [(0, 2)] (by decide) (by decide) (by simp) (by simp) none none
    (.inl rfl) (.inl rfl) 0 none none rfl rfl c d (exBox_new h1) (exBox_new k1)
  have := C132_built (cal := dayCal) h1 k1 (by simp [h2, k2]) (by simp [h2]) (op := (· + ·)) hs
  trivial

/-! ### Repayment plans -/

example := Plans.C05_annuity (K := ℚ) 3 300 (1 / 100)
example := Plans.C07_outstanding (K := ℚ) [100, 100, 100] 300 false
example := C134_linear [(0, 1), (1, 2), (3, 5)] (by norm_num) (1, 2) (3, 5) (by constructor <;> norm_num) 2 (by norm_num) (by norm_num)
example := C134_loglinear [(0, 1), (1, 2), (3, 5)] (by norm_num) (by norm_num) (1, 2) (3, 5) (by constructor <;> norm_num) 2 (by norm_num) (by norm_num)

/-! ### Derived curves -/

example : True := by
  obtain ⟨c', h, -⟩ := C75_registered_partial dayCal (exDatePoints none) (.inl rfl) goodDayCount_int [0, 100] (by decide) (by simp)
    (fun x : ℤ => (x : ℝ) + 2) (exDatePoints_call none rfl) .none rfl rfl
  trivial

/-! ### Credit curves -/
example (f g : CRCurve ℝ FloatPeriod) (hg : g.base.domain = [0, 1]) := C137_float_violated (· + ·) 10 (fun _ => false) (fun _ => false) (fun _ => false) f g (by rw [hg]; simp)

/-! ### Products -/

example := C65_bond_violated (fun _ _ => .error .value) (.scalar 100) .none (1 / 100) .none none none (start := 0) (stop := 2) (period := 1) (by norm_num)
example := C65_swap_violated (fun _ _ => .error .value) 100 .none .none (1 / 100) 0 .none .none none none (start := 0) (stop := 2) (period := 1) (rperiod := 1) (by norm_num)

/-! ### Ratings -/

section
open Rating

theorem exGrades : DistinctClasses [("A", .float (1 / 10)), ("D", .int 1)] := by
  refine ⟨by decide, ?_⟩
  have h1 := round7_pow (j := 1) (by norm_num)
  norm_num at h1
  simp only [List.map_cons, List.map_nil, ScaleNum.val, Int.cast_one, round7_one]
  rw [show (1 / 10 : ℝ) = 10⁻¹ by norm_num]
  norm_num [h1]

theorem exGrades_between : (∃ p ∈ ([("A", .float (10 ^ (-(2 : ℕ) : ℤ))), ("D", .int 1)] : Dict String ScaleNum), round7 p.2.val < round7 (10 ^ (-(1 : ℕ) : ℤ))) ∧
    (∃ p ∈ ([("A", .float (10 ^ (-(2 : ℕ) : ℤ))), ("D", .int 1)] : Dict String ScaleNum), round7 (10 ^ (-(1 : ℕ) : ℤ)) < round7 p.2.val) ∧
    ∀ p ∈ ([("A", .float (10 ^ (-(2 : ℕ) : ℤ))), ("D", .int 1)] : Dict String ScaleNum), round7 (10 ^ (-(1 : ℕ) : ℤ)) ≠ round7 p.2.val := by
  have h1 := round7_pow (j := 1) (by norm_num)
  have h2 := round7_pow (j := 2) (by norm_num)
  simp only [List.mem_cons, List.not_mem_nil, or_false, exists_eq_or_imp, exists_eq_left, forall_eq_or_imp, forall_eq, ScaleNum.val,
    Int.cast_one, round7_one, h1, h2]
  norm_num

example := C108_partial true exGrades (k := "A") (x := 1 / 10) (by simp)
example := C108_combination true exGrades_between.1 exGrades_between.2.1 exGrades_between.2.2
example := C108_plain true (s := (.none : ScaleArg String)) (.inl rfl)

end

/-! ### Present values -/

example := C54_today_discount (cal := dayCal) (c := (exLinear .discount none 1 0.97).obj) rfl (v := 10) (exDiscount_answers.call 10) (exLinearValue_pos one_pos (by norm_num) 10).ne'
example := C54_today_violated (cal := dayCal) (c := (exLinear .discount none 1 0.97).obj) rfl 0
example := C55_restored (exValued exWorld rfl rfl)
example := C55_evaluated (w := exWorld) (a := 2) (m := 0) rfl rfl 1
example := C55_failing_flow_violated (cal := floatCal) (c := exWorld.curves 0) (same := false) (v := 1) (d := 1) (a := 2) (m := 0) (w := exWorld) (e := .value)
  rfl rfl (by simp [exWorld]) le_rfl (by simp [World.list, World.setValuation, exWorld, CFList.getitem, Dict.ofPairs, Dict.get, Dict.set, PayOff.eval])
example := C55_no_model_violated (cal := floatCal) (c := exWorld.curves 0) (same := false) (v := 1) (a := 3) (w := exWorld) rfl rfl
example := C126_curves (exPays rfl : Pays floatCal exWorld 0 (.list 1) _) (c := exWorld.curves 0) (c' := exWorld.curves 0) (same := false) (same' := false)
  (fun q _ => ⟨_, exDf 0 q.1, exDf 0 q.1⟩)

/-! ### Yields -/

example := C120_defined (cal := floatCal) (o? := none) (dc := .default) (tenor := none) (same := true) trivial goodDayCount_real (by simp) (exPays rfl : Pays floatCal exWorld 0 (.list 1) _) (1 / 100)
example (y z : ℝ) (h : y ≤ z) : ∃ c c' x x' , IRCurve.new floatCal .zero [0] [y] none none .default none = .ok c ∧ IRCurve.new floatCal .zero [0] [z] none none .default none = .ok c' ∧
    pv floatCal c.obj true (some 0) (.list 1) exWorld = (.ok x, exWorld) ∧ pv floatCal c'.obj true (some 0) (.list 1) exWorld = (.ok x', exWorld) ∧
    Real.exp (-((z - y) * 3)) * x ≤ x' ∧ x' ≤ Real.exp (-((z - y) * 1)) * x := by
  have hp : Pays floatCal exWorld 0 (.list 1) _ := exPays rfl
  obtain ⟨c, hc, hx⟩ := C120_defined (cal := floatCal) (o? := none) (dc := .default) (tenor := none) (same := true) trivial goodDayCount_real (by simp) hp y
  obtain ⟨c', hc', hx'⟩ := C120_defined (cal := floatCal) (o? := none) (dc := .default) (tenor := none) (same := true) trivial goodDayCount_real (by simp) hp z
  refine ⟨c, c', _, _, hc, hc', hx, hx', C120_duration (cal := floatCal) (o? := none) (dc := .default) (tenor := none) (same := true) trivial goodDayCount_real (by simp) hp ?_ h hc hx hc' hx'⟩
  simp only [List.mem_cons, List.not_mem_nil, or_false, forall_eq_or_imp, forall_eq]
  norm_num [DayCountArg.fn, floatCal]
example (y z : ℝ) : ∃ c c' cm x x' m , IRCurve.new floatCal .zero [0] [y] none none .default none = .ok c ∧ IRCurve.new floatCal .zero [0] [z] none none .default none = .ok c' ∧
    IRCurve.new floatCal .zero [0] [(1 - 1 / 2) * y + 1 / 2 * z] none none .default none = .ok cm ∧
    pv floatCal c.obj true (some 0) (.list 1) exWorld = (.ok x, exWorld) ∧ pv floatCal c'.obj true (some 0) (.list 1) exWorld = (.ok x', exWorld) ∧
    pv floatCal cm.obj true (some 0) (.list 1) exWorld = (.ok m, exWorld) ∧ m ≤ (1 - 1 / 2) * x + 1 / 2 * x' := by
  have hp : Pays floatCal exWorld 0 (.list 1) _ := exPays rfl
  obtain ⟨c, hc, hx⟩ := C120_defined (cal := floatCal) (o? := none) (dc := .default) (tenor := none) (same := true) trivial goodDayCount_real (by simp) hp y
  obtain ⟨c', hc', hx'⟩ := C120_defined (cal := floatCal) (o? := none) (dc := .default) (tenor := none) (same := true) trivial goodDayCount_real (by simp) hp z
  obtain ⟨cm, hm, hxm⟩ := C120_defined (cal := floatCal) (o? := none) (dc := .default) (tenor := none) (same := true) trivial goodDayCount_real (by simp) hp ((1 - 1 / 2) * y + 1 / 2 * z)
  exact ⟨c, c', cm, _, _, _, hc, hc', hm, hx, hx', hxm, C120_convex (cal := floatCal) (o? := none) (dc := .default) (tenor := none) (same := true) trivial goodDayCount_real (by simp) hp
    (by simp) (by norm_num) (by norm_num) hc hx hc' hx' hm hxm⟩

/-! ### Arithmetic with rate curves -/

theorem exOperands (cls : IRClass) (h : cls = .zero ∨ cls = .short) :
    ∃ f g, RateOperands dayCal cls [(0, 1 / 50), (2, 1 / 20)] [(0, 1 / 100), (1, 3 / 100)] 0 none none none none f g := by
  have hA : (([(0, 1 / 50), (2, 1 / 20)] : List (ℤ × ℝ)).map Prod.fst).Nodup := by simp
  have hB : (([(0, 1 / 100), (1, 3 / 100)] : List (ℤ × ℝ)).map Prod.fst).Nodup := by simp
  exact ⟨_, _, goodDayCount_int, hA, hB, by simp, by simp, rfl, rfl,
    IRCurve_new_eq dayCal (dc := .default) hA (by simp [(dflt_plain h).1]) rfl trivial goodDayCount_int,
    IRCurve_new_eq dayCal (dc := .default) hB (by simp [(dflt_plain h).1]) rfl trivial goodDayCount_int⟩

example (same : ℤ → Bool) : True := by
  obtain ⟨f, g, h⟩ := exOperands .zero (.inl rfl)
  obtain ⟨⟨S, hS, -⟩, -⟩ := C115_zero_partial h 10 same same same
  have := C115_discount_partial h (by simp) (by simp) 10 same same same
  have := C115_settings_violated hS
  obtain ⟨f', g', h'⟩ := exOperands .short (.inr rfl)
  have := C115_short_partial h' (· * ·) 10 same same same
  trivial
example (same : ℤ → Bool) : True := by
  have h : ∀ (c : ℤ) (y : ℝ), ∃ f : IRCurve ℤ ℤ, IRCurve.new dayCal .zero [c] [y] none none .default none = .ok f := fun c y =>
    ⟨_, IRCurve_new_eq dayCal (pts := [(c, y)]) (cls := .zero) (i := none) (o? := none) (o := c) (dc := .default) (by simp)
      (by simp [(dflt_plain (Or.inl rfl)).1]) rfl trivial goodDayCount_int (tenor := none)⟩
  have := C115_flat_partial goodDayCount_int (h 0 (1 / 50)).choose_spec (h 5 (1 / 100)).choose_spec (· + ·) 10 same same same
  trivial

/-! ### Fixings and spreads -/

example (c' : RateCurve ℤ ℤ) (h : ({ (exLinear .zero none 0.01 0.02).toRateCurve with base := { (exLinear .zero none 0.01 0.02).base with fixings := [(10, 7)] } } : RateCurve ℤ ℤ).setitem dayCal 10 5 = .ok c') :=
  C20_fixing_violated (cal := dayCal) rfl (k := 10) (v := 5) (w := 7) (by simp [Dict.get]) h
example := C26_rate_no_spread (cal := dayCal) (exLinear .zero none 0.01 0.02).toRateCurve rfl [(10, 7), (20, 8)] 10
example : ∃ f, (irOf floatCal 0 none .default (some linearScheme) .zero none [(0, 0.01), (1, 0.02)] : IRCurve ℝ FloatPeriod).cashRate floatCal false 11 1 (some 0) (some (.num 1)) = .ok f := by
  have ha : Answers floatCal (irOf floatCal 0 none .default (some linearScheme) .zero none [(0, 0.01), (1, 0.02)] : IRCurve ℝ FloatPeriod)
      (linVal floatCal.dayCount 0 [(0, 0.01), (1, 0.02)]) floatCal.dayCount 0 :=
    ⟨irOf_linear floatCal rfl rfl (dc := .default) trivial goodDayCount_real (by simp) (by simp),
      irOf_dayCount floatCal (dc := .default) trivial, goodDayCount_real, rfl⟩
  obtain ⟨df, -, e, h, -⟩ := C28_zero ha rfl
  exact C31_conflict_violated ha (by simp [irOf]) false 10 (s := 1) (e := 0) (p := .num 1) (.inl (by simp [floatCal])) (by norm_num) (h false 1 0 (by simp)) (by rw [e]; exact (Real.exp_pos _).ne')
example := C96_violated 10 10 (fun _ => false) false rfl
example := C131_none (cal := dayCal) (cls := .zero) (.inl rfl) 10 (fun _ => false) (exLinear .short none 0.01 0.02) none none .default none

/-! ### Rebuilt lists -/

theorem exTwoRates_keyed (r s : Option ℝ) : (exTwoRates r s).Keyed := by
  intro d
  simp only [exTwoRates, Dict.get, List.mem_cons, List.not_mem_nil, or_false, not_or]
  by_cases h1 : d = 365
  · subst h1; simp
  · by_cases h2 : d = 730
    · subst h2; simp
    · simp [h1, h2, Ne.symm h1, Ne.symm h2]

theorem exTwoRates_plain (r s : Option ℝ) (d : ℤ) (f : ModelArg ℤ → Py ℝ) : (exTwoRates r s).flows.get d ≠ some (.fn f) := fun h => by
  have := Dict.get_mem h
  simp [exTwoRates] at this

example := C135_plain (cal := dayCal) (back := fun _ _ => .error .value) (exTwoRates_keyed (some 0.01) none) (exTwoRates_plain _ _)
example := C135_function_violated (cal := dayCal) (back := fun _ _ => .error .value) (exTwoRates_keyed (some 0.01) none)
example := C135_fixed_violated (cal := dayCal) (back := fun _ _ => .error .value) (exTwoRates_keyed (some 0.01) none)
example := C135_rate_violated (cal := dayCal) (back := fun _ _ => .error .value) (exTwoRates_keyed (some 0.01) none) ⟨by simp [exTwoRates], fun o h => by simp [dayCal]⟩
example := C135_option_violated (cal := dayCal) (back := fun _ _ => .error .value) (exTwoRates_keyed (some 0.01) none) (by simp [exTwoRates])
example : ∃ c, CF.newLegs [(.flat (exTwoRates (some 0.01) none) : CF ℤ ℤ)] = .ok c ∧ c.rebuild dayCal (fun _ _ => .error .value) .rate = .error .value := by
  obtain ⟨c, hc⟩ : ∃ c, CF.newLegs [(.flat (exTwoRates (some 0.01) none) : CF ℤ ℤ)] = .ok c := ⟨_, rfl⟩
  exact ⟨c, hc, C135_legs_violated .rate hc⟩

/-! ### Assigned own values -/

example : ∃ c', [(2 : ℝ)].foldlM (fun c x => do Curve.setitem c x (← c.num x)) (curveOf none [(1, 2), (3, 4)]) = .ok c' ∧ ∀ z, c'.call z = (curveOf none [(1, 2), (3, 4)]).call z := by
  obtain ⟨c', h1, h2, -⟩ := C154_curve (i := none) (by simp [Refinable, linearScheme]) (P := [(1, 2), (3, 4)]) (by norm_num) (by simp) exPlainPoints (xs := [2])
    (fun x hx => ⟨_, funcOf_linear_call (by norm_num) (by simp) x⟩)
  exact ⟨c', h1, h2⟩

end Dcf
