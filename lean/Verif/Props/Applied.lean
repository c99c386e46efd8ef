import Verif.Props.RateExtra
import Verif.Props.RateLoops
import Verif.Props.DiscountShape
import Verif.Props.CashArith
import Verif.Props.CreditArith
import Verif.Props.RateArith
import Verif.Props.RateShift
import Verif.Props.Rounded
import Verif.Props.RatingNames

/-!
# Theorems about curves applied to given curves

The hypotheses of the theorems about rates, factors and the conversions between curve classes can be met: here each is applied to a
curve of two points of the class it speaks of.
-/

set_option linter.unusedSectionVars false
set_option linter.unusedSimpArgs false
set_option linter.unusedVariables false

namespace Dcf

open Spec

/-! ### A curve of each class -/

/-- Linear curves of any class through two points. -/
noncomputable def exLinear (cls : IRClass) (tenor : Option ℤ) (a b : ℝ) : IRCurve ℤ ℤ :=
  irOf dayCal 0 none .default (some linearScheme) cls tenor [(0, a), (365, b)]

noncomputable def exLinearValue (a b : ℝ) : ℤ → ℝ := linVal dayCal.dayCount 0 [(0, a), (365, b)]

theorem exLinear_answers (cls : IRClass) (tenor : Option ℤ) (a b : ℝ) :
    Answers dayCal (exLinear cls tenor a b) (exLinearValue a b) dayCal.dayCount 0 :=
  ⟨irOf_linear dayCal rfl rfl (dc := .default) trivial goodDayCount_int (by simp) (by simp),
    irOf_dayCount dayCal (dc := .default) trivial, goodDayCount_int, rfl⟩

theorem exLinear_new (cls : IRClass) (tenor : Option ℤ) (a b : ℝ) :
    IRCurve.new dayCal cls [0, 365] [a, b] (some linearScheme) none .default tenor = .ok (exLinear cls tenor a b) :=
  IRCurve_new_eq dayCal (pts := [(0, a), (365, b)]) (by simp) (by simp [linearScheme, FuncSpec.isLog, Kind.isLog]) rfl (dc := .default) trivial
    goodDayCount_int

theorem exLinear_domain (cls : IRClass) (tenor : Option ℤ) (a b : ℝ) : (exLinear cls tenor a b).base.domain = [0, 365] := rfl

theorem exLinearValue_first (a b : ℝ) : exLinearValue a b 0 = a := by
  have h1 := (exLinear_answers .zero none a b).call 0
  have h2 : (exLinear .zero none a b).call dayCal 0 = .ok a := irOf_node dayCal rfl (dc := .default) trivial goodDayCount_int (by simp)
    (by simp [linearScheme, FuncSpec.isLog, Kind.isLog]) (by simp [linearScheme, FuncSpec.needsNonzero]) (by simp)
  exact Except.ok.inj (h1.symm.trans h2)

theorem exLinearValue_between {a b lo hi : ℝ} (ha : lo ≤ a ∧ a ≤ hi) (hb : lo ≤ b ∧ b ≤ hi) (x : ℤ) :
    lo ≤ exLinearValue a b x ∧ exLinearValue a b x ≤ hi := by
  refine flin_bounds (sortPairs_strict (timePts_nodup goodDayCount_int 0 (by simp))) ?_ (fun p hp => ?_) _
  · intro h
    have := (sortPairs_perm (timePts (fun s e => ((e - s : ℤ) : ℝ) / (36525 / 100)) 0 [(0, a), (365, b)])).length_eq
    rw [h] at this
    simp [timePts] at this
  · have := (sortPairs_perm _).mem_iff.1 hp
    simp only [timePts, List.map_cons, List.map_nil, List.mem_cons, List.not_mem_nil, or_false] at this
    rcases this with rfl | rfl
    · exact ha
    · exact hb

theorem exLinearValue_pos {a b : ℝ} (ha : 0 < a) (hb : 0 < b) (x : ℤ) : 0 < exLinearValue a b x :=
  lt_of_lt_of_le (lt_min ha hb) (exLinearValue_between (lo := min a b) (hi := max a b) (by simp) (by simp) x).1

/-- Zero rates, short rates, cash rates (with a tenor of 180 days) and discount factors. -/
theorem exZero_answers : Answers dayCal (exLinear .zero none 0.01 0.02) (exLinearValue 0.01 0.02) dayCal.dayCount 0 := exLinear_answers .zero none 0.01 0.02
theorem exShort_answers : Answers dayCal (exLinear .short none 0.01 0.02) (exLinearValue 0.01 0.02) dayCal.dayCount 0 := exLinear_answers .short none 0.01 0.02
theorem exCash_answers : Answers dayCal (exLinear .cash (some 180) 0.01 0.02) (exLinearValue 0.01 0.02) dayCal.dayCount 0 := exLinear_answers .cash (some 180) 0.01 0.02
theorem exDiscount_answers : Answers dayCal (exLinear .discount none 1 0.97) (exLinearValue 1 0.97) dayCal.dayCount 0 := exLinear_answers .discount none 1 0.97

/-! ### Rates and factors -/

example := C28_empty (cal := dayCal) (c := exLinear .zero none 0.01 0.02) (by simp [exLinear, irOf]) false 7
example := C28_discount exDiscount_answers rfl (exLinearValue_first _ _) (exLinearValue_pos (a := 1) (b := 0.97) (by norm_num) (by norm_num))
example := C28_discount_adjacent exDiscount_answers rfl (fun x => (exLinearValue_pos (a := 1) (b := 0.97) (by norm_num) (by norm_num) x).ne')
example := C28_discount_origin_violated (exLinear_answers .discount none 0.99 0.97) rfl (by rw [exLinearValue_first]; norm_num)
example := C29_relation exCash_answers false (s := 0) (t := 365) (by norm_num)
example := C29_average exZero_answers (.inl rfl)
example := C29_average exDiscount_answers (.inr ⟨rfl, exLinearValue_first _ _, exLinearValue_pos (a := 1) (b := 0.97) (by norm_num) (by norm_num)⟩)
example := C30_zero exZero_answers rfl 100
example := C30_short_cash (cal := dayCal) (c := exLinear .cash none 0.01 0.02) (.inr rfl) 0 100
example := C30_discount_partial exDiscount_answers rfl 100

/-- Cash rates of a zero rate curve: stop, step and tenor given. -/
example : ∃ f, (exLinear .zero none 0.01 0.02).cashRate dayCal false 1 10 none (some 20) = .ok f := by
  obtain ⟨df, -, h1, hdf, -⟩ := C28_zero exZero_answers rfl
  obtain ⟨f, hf, -⟩ := C31_relation exZero_answers (by simp [exLinear, irOf]) false 0 (s := 10) (e := 30) (.step 20 30 rfl) (by norm_num)
    (hdf false 10 30 (by simp)) (by rw [h1]; exact (Real.exp_pos _).ne')
  exact ⟨f, hf⟩

example := C31_empty exZero_answers (.inl rfl) false 0 10
example := C31_conflict (cal := dayCal) (c := exLinear .zero none 0.01 0.02) false 0 (s := 10) (e := 40) (x := 30) (p := 20) rfl (by norm_num)
  (by simp [dayCal]) (by simp [dayCal])
example := C33_inside (cal := dayCal) (c := exLinear .zero none 0.01 0.02) (by simp [exLinear, irOf]) false 0 (x := 10) (a := 0) (b := 365)
  (by constructor <;> simp [exLinear_domain])
example := C33_short (cal := dayCal) (c := exLinear .short none 0.01 0.02) rfl false 0 10
example := C33_partial (cal := dayCal) (c := exLinear .zero none 0.01 0.02) (by simp [exLinear, irOf]) false 0 (lo := 0) (hi := 365) (d := 364)
  (by simp [exLinear_domain]) (by simp [exLinear_domain]) (by simp [exLinear_domain]) (by simp [exLinear_domain]) (by simp [dayCal]) (by norm_num)
  (by norm_num) 400
example := C33_single_violated (cal := dayCal) (c := irOf dayCal 5 none .default none .zero none [(5, 0.01)]) (by simp [irOf]) false (g := 5) (d := 4)
  rfl (by simp [dayCal]) (by norm_num)
example := C34_partial (cal := dayCal) (c := exLinear .cash (some 180) 0.01 0.02) rfl false 0 (s := 0) (e := 180) (.stop 180) (by simp [dayCal, exLinear, irOf])
example := C34_violated (cal := dayCal) (c := exLinear .cash (some 180) 0.01 0.02) rfl false (s := 0) (e := 90) (x := 180) (.stop 90)
  (by simp [dayCal, exLinear, irOf]) (by norm_num)

/-! ### Short and cash rate curves -/

example := C32_integral exShort_answers rfl false (s := 5) (t := 12) (n := 6) (by norm_num) (dayCal_steps 1 5) ⟨fun k hk => by push_cast; omega, by norm_num⟩
example := C32_terminates exShort_answers rfl false (s := 5) (t := 12) (by norm_num) (dayCal_steps 1 5)
example := C32_flat (exLinear_answers .short none 0.01 0.01) rfl false (s := 5) (t := 12) (dayCal_steps 1 5) ⟨6, by norm_num⟩ (r := 0.01)
  (fun x => le_antisymm (exLinearValue_between (lo := 0.01) (hi := 0.01) (by simp) (by simp) x).2 (exLinearValue_between (lo := 0.01) (hi := 0.01) (by simp) (by simp) x).1)
example := C32_additive exShort_answers rfl false false false (s := 5) (u := 12) (dayCal_steps 1 5) (fun k => by push_cast; omega) 2 (by norm_num) ⟨6, by norm_num⟩
example := C28_short exShort_answers rfl false false false (s := 5) (u := 12) (dayCal_steps 1 5) (fun k => by push_cast; omega) 2 (by norm_num) ⟨6, by norm_num⟩

theorem exCash_pos {s t : ℤ} (h : s ≤ t) (x : ℤ) : 0 < 1 + exLinearValue 0.01 0.02 x * dayCal.dayCount s t := by
  have h1 := exLinearValue_pos (a := 0.01) (b := 0.02) (by norm_num) (by norm_num) x
  have h2 : 0 ≤ dayCal.dayCount s t := by
    rcases h.lt_or_eq with h | rfl
    · exact ((goodDayCount_int.pos _ _).2 h).le
    · rw [show dayCal.dayCount s s = 0 from goodDayCount_int.self s]
  positivity

example := C32_cash exCash_answers rfl false (s := 5) (t := 400) (n := 2) (by norm_num) (dayCal_steps 180 5) ⟨fun k hk => by push_cast; omega, by norm_num⟩
  (fun k _ => exCash_pos (by push_cast; omega) _) (exCash_pos (by norm_num) _)
example := C31_cash exCash_answers rfl false 0 (s := 5) (dayCal_steps 180 5) (by norm_num) (exCash_pos (by norm_num) _)
example := C28_cash exCash_answers rfl false false false (s := 5) (u := 400) (dayCal_steps 180 5) (fun k => by push_cast; omega) 1 (by norm_num) ⟨3, by norm_num⟩
  (fun x => (exLinearValue_pos (a := 0.01) (b := 0.02) (by norm_num) (by norm_num) x).le)

/-! ### Annuities -/

theorem exZero_discount : ∃ df : ℤ → ℝ, (∀ d, (exLinear .zero none 0.01 0.02).discount dayCal d = .ok (df d)) ∧ ∀ d, 0 < df d := by
  obtain ⟨df, -, h1, -, h2⟩ := C28_zero exZero_answers rfl
  exact ⟨df 0, h2, fun d => by rw [h1]; exact Real.exp_pos _⟩

example : ∃ df : ℤ → ℝ, (∀ d, (exLinear .zero none 0.01 0.02).discount dayCal d = .ok (df d)) ∧
    (exLinear .zero none 0.01 0.02).swapAnnuity dayCal [90, 180] = .ok 0 ∧
    (exLinear .zero none 0.01 0.02).swapAnnuity dayCal [90, 180] ≠ .ok (annuity df dayCal.dayCount [90, 180]) := by
  obtain ⟨df, h1, h2⟩ := exZero_discount
  exact ⟨df, h1, C35_partial exZero_answers _ fun d _ => ⟨_, h1 d⟩, C35_violated exZero_answers _ (by simp) (by simp) df h1 h2⟩

/-! ### Spreads, hazard rates, rates of empty periods -/

example := C91_set (cal := dayCal) (c := (exLinear .zero none 0.01 0.02).toRateCurve) rfl (f := fun _ => .ok (some 0.005)) (x := 90) (exZero_answers.call 90) rfl
example := C91_reset (c := { (exLinear .zero none 0.01 0.02).toRateCurve with spread := some fun _ => .ok (some 0.005) }) (by simp) fun _ => .ok (some 0.001)

/-- Credit curves of any class. -/
noncomputable def exCredit (cls : CRClass) : CRCurve ℤ ℤ := crOf dayCal 0 none .default (some linearScheme) cls none [(0, 0.99), (365, 0.97)]

theorem exCredit_around (cls : CRClass) : Around (exCredit cls).base.domain 10 0 365 := by
  constructor <;> simp [exCredit, crOf, dateCurveOf]

example := C92_hazard (cal := dayCal) (c := exCredit .hazard) rfl false 0 10
example := C92_inside (cal := dayCal) (c := exCredit .survival) (by simp [exCredit, crOf]) false 0 (exCredit_around _)
example := C92_before (cal := dayCal) (c := exCredit .survival) (by simp [exCredit, crOf]) false 0 (lo := 0) (x := -10)
  (by simp [exCredit, crOf, dateCurveOf]) (by simp [exCredit, crOf, dateCurveOf]) (by norm_num)
example := C92_after_marginal (cal := dayCal) (c := exCredit .marginal) (.inl rfl) false 0 (hi := 365) (d := 366) (x := 400)
  (by simp [exCredit, crOf, dateCurveOf]) (by simp [exCredit, crOf, dateCurveOf]) (by simp [dayCal]) (by norm_num)
example := C92_after (cal := dayCal) (c := exCredit .survival) (.inl rfl) false 0 (hi := 365) (d := 364) (x := 400)
  (by simp [exCredit, crOf, dateCurveOf]) (by simp [exCredit, crOf, dateCurveOf]) (by simp [dayCal]) (by norm_num)
example := C92_single_violated (cal := dayCal) (c := crOf dayCal 5 none .default none .survival none [(5, 0.99)]) (.inl rfl) false (g := 5) (d := 4)
  rfl (by simp [dayCal]) (by norm_num)
example := C92_partial (cal := dayCal) (c := exCredit .survival) (by simp [exCredit, crOf]) false 0 (lo := 0) (hi := 365) (d := 364) (n := 366)
  (by simp [exCredit, crOf, dateCurveOf]) (by simp [exCredit, crOf, dateCurveOf]) (by simp [exCredit, crOf, dateCurveOf])
  (by simp [exCredit, crOf, dateCurveOf]) (by simp [dayCal]) (by simp [dayCal]) (by norm_num) (by norm_num) 400

theorem exLinear_origin (cls : IRClass) (t : Option ℤ) (a b : ℝ) : (exLinear cls t a b).base.origin = some 0 := rfl
theorem exCredit_origin (cls : CRClass) : (exCredit cls).base.origin = some 0 := rfl

example := C95_zero (cal := dayCal) (c := exLinear .zero none 0.01 0.02) rfl (s := 10) (n := 11) (by simp [exLinear_origin]) (by simp [dayCal]) (by norm_num)
example := C95_zero_origin (cal := dayCal) (c := exLinear .zero none 0.01 0.02) rfl false (exLinear_origin _ _ _ _)
example := C95_stored (cal := dayCal) (c := exLinear .short none 0.01 0.02) (.inl rfl) false 10
example := C95_discount (cal := dayCal) (c := exLinear .discount none 1 0.97) rfl false (s := 10) (n := 11) (by simp [exLinear_origin]) (by simp [dayCal]) (by norm_num)
example := C95_discount_origin (cal := dayCal) (c := exLinear .discount none 1 0.97) rfl false (m := 365) (exLinear_origin _ _ _ _) (by simp [exLinear_domain]) (by norm_num)
  (by simp [exLinear_domain])
example := C95_prob (cal := dayCal) (c := exCredit .survival) rfl false (s := 10) (n := 11) (by simp [exCredit_origin]) (by simp [dayCal]) (by norm_num)
example := C95_hazard (cal := dayCal) (c := exCredit .hazard) rfl false 10

/-! ### Casts -/

/-- A zero rate curve with a tenor of 180 days, cast to its own class with and without a new origin. -/
theorem exCast (o? : Option ℤ) (o : ℤ) (ho : o? = some o ∨ o? = none ∧ o = 0) :
    ∃ d, (exLinear .zero (some 180) 0.01 0.02).cast dayCal .zero 1 (fun _ => false) none o? .default none = .ok d := by
  refine ⟨_, castOn_eq (cal := dayCal) (dom := [0, 365]) (o := o) (w := exLinearValue 0.01 0.02) (fun x _ => ?_) (by simp) (by simp [IRClass.dflt, linearScheme, FuncSpec.isLog, Kind.isLog]) ?_
    trivial goodDayCount_int⟩
  · rw [storage_self dayCal (.inl rfl) rfl (exLinear_origin _ _ _ _)]
    exact (exLinear_answers _ _ _ _).call x
  · rcases ho with rfl | ⟨rfl, rfl⟩
    · simp [Cal.or, dayCal]
    · rfl

example : ∃ d d', (exLinear .zero (some 180) 0.01 0.02).cast dayCal .zero 1 (fun _ => false) none (some 7) .default none = .ok d ∧
    (exLinear .zero (some 180) 0.01 0.02).cast dayCal .zero 1 (fun _ => false) none none .default none = .ok d' ∧ d.base.origin = some 7 ∧ d'.base.origin = some 0 ∧
    (∀ s e, d'.dayCount dayCal s e = (exLinear .zero (some 180) 0.01 0.02).dayCount dayCal s e) ∧ d'.forwardTenor dayCal = 90 := by
  obtain ⟨d, h⟩ := exCast (some 7) 7 (.inl rfl)
  obtain ⟨d', h'⟩ := exCast none 0 (.inr ⟨rfl, rfl⟩)
  exact ⟨d, d', h, h', C93_rate_partial (cal := dayCal) rfl h, C93_kept_partial (cal := dayCal) (exLinear_origin _ _ _ _) (by simp [dayCal]) h',
    C97_day_count_partial rfl h', (C97_tenor_violated (by simp) h' (p := 180) rfl (by simp [dayCal])).1⟩

/-- A cash rate curve cast to cash rates: dates rolled back by the tenor of 90 days. -/
example : ∃ c d : IRCurve ℤ ℤ, IRCurve.new dayCal .cash [0, 200] [0.01, 0.02] none none .default none = .ok c ∧
    IRCurve.cast dayCal .cash 1 (fun _ => false) c none none .default none = .ok d ∧ d.forwardTenor dayCal = c.forwardTenor dayCal ∧ (110 : ℤ) ∈ d.base.domain ∧
      d.cashRate dayCal false 1 110 none none = c.cashRate dayCal false 1 110 none none ∧
      d.cashRate dayCal false 1 110 none none = c.cashRate dayCal false 1 110 none (some 90) := by
  have hc := IRCurve_new_eq dayCal (cls := .cash) (i := none) (o? := none) (dc := .default) (tenor := none) (pts := [(0, 0.01), (200, 0.02)]) (o := 0) (by simp)
    (by simp [IRClass.dflt, FuncSpec.isLog, Kind.isLog, linearScheme]) rfl trivial goodDayCount_int
  obtain ⟨ys, o', h, -, -, -, ho⟩ := cash_cast_own (cal := dayCal) goodDayCount_int (pts := [(0, 0.01), (200, 0.02)]) (o := 0) (o? := none) rfl (.inr (by simp)) (t := none) (t' := none)
    (fun x => ⟨_, rfl⟩) (tenorSteps_day (show 0 < dayCal.threeMonths by simp [dayCal])) (irOf_linear dayCal rfl rfl (dc := .default) trivial goodDayCount_int (by simp) (by simp)) 0 (fun _ => false)
  have hit : ∀ k x, (fun d : ℤ => d - 90)^[k] x = x - 90 * k := by
    intro k
    induction k with
    | zero => simp
    | succ k ih => intro x; rw [Function.iterate_succ_apply, ih]; push_cast; ring
  have hg := C94_grid (cal := dayCal) (sh := fun d => d - 90) (o := 0) (fun d => rfl) rfl (fun x _ => ⟨x.natAbs, by rw [hit]; omega⟩) h
  have hm : (110 : ℤ) ∈ (irOf dayCal 0 o' .default none .cash (some ((none : Option ℤ).getD ((none : Option ℤ).getD dayCal.threeMonths))) (ys.map fun x => (x, _))).base.domain :=
    (hg.2 110).2 (.inr ⟨200, by simp [irOf, dateCurveOf], 1, rfl, fun j hj => by rw [hit]; omega⟩)
  set c : IRCurve ℤ ℤ := irOf dayCal 0 none .default none .cash none [(0, 0.01), (200, 0.02)] with hcd
  have ho' := irOf_origin dayCal (dc := .default) (i := none) (cls := .cash) (tenor := some ((none : Option ℤ).getD ((none : Option ℤ).getD dayCal.threeMonths)))
    (pts := ys.map fun x => (x, linVal (DayCountArg.fn dayCal .default) 0 [(0, 0.01), (200, 0.02)] x)) (o? := o') (o := 0) (by simpa [Function.comp_def] using ho)
  exact ⟨c, _, hc, h, C97_cash_tenor_partial h, hm, C96_stored (cal := dayCal) (c := c) (dc := .default) trivial goodDayCount_int h (o := 0) ho' hm rfl false,
    C96_partial (cal := dayCal) (c := c) (dc := .default) trivial goodDayCount_int (.inl rfl) h (o := 0) ho' hm rfl false⟩

/-- A falsy origin, the number zero, is not taken. -/
example : ∃ c d : IRCurve ℝ FloatPeriod, IRCurve.new floatCal .zero [1, 2] [0.01, 0.02] none (some 1) .default none = .ok c ∧
    IRCurve.cast floatCal .zero 1 (fun _ => false) c none (some 0) .default none = .ok d ∧ d.base.origin = some 1 := by
  have hc := IRCurve_new_eq floatCal (pts := [(1, 0.01), (2, 0.02)]) (o := 1) (o? := some 1) (cls := .zero) (i := none) (tenor := none) (by simp)
    (by simp [IRClass.dflt, linearScheme, FuncSpec.isLog, Kind.isLog]) rfl (dc := .default) trivial goodDayCount_real
  set c : IRCurve ℝ FloatPeriod := irOf floatCal 1 (some 1) .default none .zero none [(1, 0.01), (2, 0.02)] with hcd
  have h := castOn_eq (cal := floatCal) (cls := .zero) (limit := 1) (same := fun _ => false) (dom := [1, 2]) (c := c) (i := none) (origin := some 0) (dc := .default)
    (tenor := none) (o := 1) (fun x _ => (storage_self floatCal (.inl rfl) rfl rfl 0 _ x).trans
      (irOf_linear floatCal rfl rfl (dc := .default) trivial goodDayCount_real (by simp) (by simp) x)) (by simp)
    (by simp [IRClass.dflt, linearScheme, FuncSpec.isLog, Kind.isLog]) (by simp [Cal.or, floatCal, hcd, irOf, dateCurveOf]) trivial goodDayCount_real
  exact ⟨c, _, hc, h, C93_violated (cal := floatCal) (cls := .zero) (limit := 1) (same := fun _ => false) (c := c) (o := 0) (by simp [floatCal]) rfl h⟩

/-- Flat default intensities cast to their own class. -/
example : ∃ c d : CRCurve ℤ ℤ, c.tenor = some 180 ∧ CRCurve.cast dayCal .flat 1 (fun _ => false) c none none .default none = .ok d ∧ d.cls = .flat ∧
    d.base.interp = none ∧ d.forwardTenor dayCal = 365 := by
  obtain ⟨ys, o', h, -⟩ := credit_cast_own (cal := dayCal) goodDayCount_int movesOn_day (cls := .flat) (.inr (.inr (.inl rfl))) (pts := [(0, 0.01), (200, 0.02)]) (o := 0) (o? := none)
    (by simp) rfl (.inr (by simp)) (t := some 180) (t' := none) (crOf_linear dayCal rfl rfl (dc := .default) trivial goodDayCount_int (by simp) (by simp)) (by simp [CRClass.isProb]) 0 (fun _ => false)
  exact ⟨_, _, rfl, h, (C127_credit_cast h).1, (C127_credit_cast h).2.1, (C97_credit_violated h (p := 180) rfl (by simp [dayCal])).1⟩

/-- Casting by the constructor and shifting dates. -/
example : ∃ d, (exLinear .zero (some 180) 0.01 0.02).cast dayCal .zero 1 (fun _ => false) none none .default none = .ok d ∧ d.cls = .zero ∧ d.base.interp = none := by
  obtain ⟨d, h⟩ := exCast none 0 (.inr ⟨rfl, rfl⟩)
  exact ⟨d, h, (C127_cast h).1, (C127_cast h).2.1⟩

example : ∃ c', (exLinear .zero (some 180) 0.01 0.02).shifted dayCal 1 (fun _ => false) 7 = .ok c' ∧ c'.base.domain = [7, 372] ∧ c'.tenor = none := by
  obtain ⟨c', h, -⟩ := C130_values (cal := dayCal) (c := exLinear .zero (some 180) 0.01 0.02) rfl (by simp [exLinear_domain]) (by simp [exLinear_domain])
    trivial goodDayCount_int 1 (fun _ => false) (δ := 7) (fun x _ => (exLinear_answers .zero (some 180) 0.01 0.02).call (x + 7))
  exact ⟨c', h, by rw [(C130_fields h).2.1]; rfl, (C130_lost_violated h).1⟩

example : ∃ c', IRCurve.construct dayCal .zero 1 (fun _ => false) (.dates [10, 20]) (.curve (exLinear .zero (some 180) 0.01 0.02)) none none .default none = .ok c' ∧
    c'.base.domain = [10, 20] := by
  obtain ⟨c', h⟩ : ∃ c', IRCurve.construct dayCal .zero 1 (fun _ => false) (.dates [10, 20]) (.curve (exLinear .zero (some 180) 0.01 0.02)) none none .default none = .ok c' :=
    ⟨_, castOn_eq (cal := dayCal) (dom := [10, 20]) (o := 10) (w := exLinearValue 0.01 0.02) (fun x _ => by
      rw [storage_self dayCal (.inl rfl) rfl (exLinear_origin _ _ _ _)]
      exact (exLinear_answers _ _ _ _).call x) (by simp) (by simp [IRClass.dflt, linearScheme, FuncSpec.isLog, Kind.isLog]) rfl trivial goodDayCount_int⟩
  exact ⟨c', h, (C131_data h).2.1⟩

/-- There and back, and assignments to curves. -/
example := C37_zero (cal := dayCal) (pts := [(0, 0.01), (365, 0.02)]) (o? := some 0) (dc := .default) (o := 0) (a := 1) (m := 365) (b := 366) (tenor := none) (tenor' := none)
  (tenor'' := none) (by simp) rfl trivial rfl goodDayCount_int (fun _ => rfl) rfl (by norm_num) (by simp) (by simp) rfl 10 (fun _ => false)
example := C20_partial (cal := dayCal) .zero none 0 .default trivial goodDayCount_int none [(0, 0.01), (365, 0.02)] [(180, 0.015), (365, 0.03)] (by simp)
  (by simp [IRClass.dflt, linearScheme, FuncSpec.isLog, Kind.isLog]) (by simp [IRClass.dflt, linearScheme, FuncSpec.needsNonzero])
example := C20_spread (cal := dayCal) (cls := .zero) (i := none) (o := 0) (dc := .default) trivial goodDayCount_int (tenor := none) (pts := [(0, 0.01), (365, 0.02)]) (by simp)
  (f := fun _ => .ok (some 0.001)) (g := fun _ => 0.001) (fun _ => rfl) 180 0.03
  (by simp [IRClass.dflt, linearScheme, FuncSpec.isLog, Kind.isLog]) (by simp [IRClass.dflt, linearScheme, FuncSpec.needsNonzero])

/-! ### Rounded numbers -/

example : ∃ rnd, ∃ R : Rounding 53 rnd, (∃ d d', Rounded.simpleCompounding rnd 0.01 1 = .ok d ∧ Rounded.simpleCompounding rnd 0.02 2 = .ok d' ∧ d' ≤ d) ∧
    (∃ d r', Rounded.simpleCompounding rnd 0.01 1 = .ok d ∧ Rounded.simpleRate rnd d 1 = .ok r' ∧ |r' - 0.01| ≤ 8 * (2 : ℝ) ^ (-(53 : ℕ) : ℤ) * ((1 + 0.01 * 1) / 1)) ∧
    (∃ x, Rounded.amortize rnd 3 100 = .ok (List.replicate 3 x) ∧ 0 ≤ x) ∧
    (∃ v v', Rounded.linearCall rnd (Pts.new [3, 1, 2] [30, 10, 20]) 1.5 = .ok v ∧ Rounded.linearCall rnd (Pts.new [3, 1, 2] [30, 10, 20]) 1.75 = .ok v' ∧ v ≤ v') ∧
    (∃ d, Rounded.continuousCompounding rnd Real.exp 1 2 = .ok d) ∧
    Rounded.presentValue rnd [(0.9, 10), (0.8, 10)] ≤ Rounded.presentValue rnd [(0.9, 10), (0.8, 11)] ∧
    ∃ ab bc ac, Rounded.dayCount rnd (.cal 10) (.cal 20) = .ok ab ∧ Rounded.dayCount rnd (.cal 20) (.cal 30) = .ok bc ∧ Rounded.dayCount rnd (.cal 10) (.cal 30) = .ok ac ∧ ab ≤ ac := by
  obtain ⟨rnd, R⟩ := exists_rounding (p := 53) (by norm_num)
  refine ⟨rnd, R, (C166_order R (by norm_num) (by norm_num) (by norm_num) (by norm_num) (by norm_num)).1,
    C166_roundtrip R (by norm_num) (by norm_num) (by norm_num), ?_, ?_, ?_, ?_, ?_⟩
  · obtain ⟨x, h1, h2, -⟩ := C168_amortize R (by norm_num) (n := 3) (by norm_num) 100
    exact ⟨x, h1, h2 (by norm_num)⟩
  · obtain ⟨v, v', h1, h2, h3, -⟩ := C167_order R (by norm_num) (pts := [(3, 30), (1, 10), (2, 20)]) (by norm_num) (a := (1, 10)) (b := (2, 20))
      ⟨by simp, by simp, by norm_num, by simp; norm_num⟩ (by norm_num) (x := 1.5) (x' := 1.75) (by norm_num) (by norm_num) (by norm_num)
    exact ⟨v, v', h1, h2, h3⟩
  · obtain ⟨d, h, -⟩ := C166_continuous R (by norm_num) (exp := Real.exp) (v := 0) (by simp) (r := 1) (IsFloat.one (by norm_num)) 2
    exact ⟨d, h⟩
  · exact (C168_order R (.cons (by norm_num) (.cons (by norm_num) .nil))).1
  · obtain ⟨ab, bc, ac, h1, h2, h3, -, -, h4, -⟩ := C168_day_count R (by norm_num) (a := 10) (b := 20) (c := 30) (by norm_num) (by norm_num)
    exact ⟨ab, bc, ac, h1, h2, h3, h4⟩

/-! ### Ratings -/

example := Rating.C08_scale 10 (by norm_num) (1 / 1000) (by norm_num) (by norm_num)
example := Rating.C08_default 10 (by norm_num)
example := Rating.C08_degenerate (1 / 1000) (by norm_num) 5 (by norm_num) (-1) (by norm_num)
example := Rating.C09_C10_weights false ([1 / 2, 1, 1 / 10] : List ℚ) (3 / 4) (1 / 10) 1 (by decide +kernel) (by decide +kernel) (by norm_num) (by decide +kernel) (by decide +kernel)
example := Rating.C09_outside ([1 / 2, 1, 1 / 10] : List ℚ) 2 (1 / 10) 1 (by decide +kernel) (by decide +kernel) (by decide +kernel)
example := Rating.C09_degenerate false ([1 / 10] : List ℚ) (1 / 10) (1 / 10) (by decide +kernel) (by decide +kernel) (by decide +kernel)
example := Rating.C109_below ([1 / 2, 1, 1 / 10] : List ℚ) (1 / 20) (1 / 10) 1 (by decide +kernel) (by decide +kernel) (by decide +kernel) (by norm_num)
example := Rating.C109_above ([1 / 2, 1, 1 / 10] : List ℚ) 2 (1 / 10) 1 (by decide +kernel) (by decide +kernel) (by decide +kernel) (by norm_num)
example := Rating.C109_zero_violated ([1 / 2, 1, 0] : List ℚ) (-1) 1 (by decide +kernel) (by decide +kernel) (by decide +kernel)
example := Rating.C108_names false (l := ["A", "B", "C", "D"]) (by decide) (by decide) (by decide) (k := "B") (by decide)
example := Rating.C108_names_violated false (l := ["AAA", "AA", "A", "BBB", "BB", "B", "CCC", "CC", "C", "D"]) (by decide) (by decide)
example := Rating.C108_unknown (d := [("A", .float (1 / 10)), ("D", .int 1)]) (k := "B") (by decide)
example := Rating.C108_whole_violated (d := [("A", .float (1 / 10)), ("D", .int 1)]) (by decide) (k := "D") (n := 1) (by simp)

end Dcf
