import Verif.Model.Pricer
import Verif.Model.Table
import Mathlib.Tactic.NormNum
import Mathlib.Tactic.Linarith

/-!
# The examples of the documentation, computed by the model

No claim rests on this file.  It compares the model with the program: each `example` takes the arguments of an example in a
docstring of `/repo/dcf` and shows that the model returns the number printed there.
-/

namespace Dcf

theorem documented_points {K : Type} [Field K] [LinearOrder K] (xs : List K) (y : K) (ys : List K) :
    Pts.new xs (y :: ys) = ⟨(sortPairs (xs.zip (y :: ys))).map Prod.fst, (sortPairs (xs.zip (y :: ys))).map Prod.snd⟩ := by
  simp [Pts.new, Pts.update]

/-! ## `dcf/interpolation.py` -/

/-- Lines 111-118: `default_value_interpolation([1,2,3,1], [1,2,3,4], default_value=42)`. -/
example : let c := Pts.new (K := ℝ) [1, 2, 3, 1] [1, 2, 3, 4]
    defaultCall c (some 42) 1 = .ok (some 1) ∧ defaultCall c (some 42) 2 = .ok (some 2) ∧ defaultCall c (some 42) 4 = .ok (some 42) := by
  norm_num [documented_points, sortPairs, List.orderedInsert, pairLe, defaultCall, pyIndex, List.idxOf_cons]

/-- Lines 142-149: `no([1,2,3,1], [1,2,3,4])`. -/
example : ∃ c, Interp.new .no [1, 2, 3, 1] [1, 2, 3, 4] = .ok c ∧ c.call 1 = .ok (some 1) ∧ c.call 2 = .ok (some 2) ∧
    c.call 4 = .ok none := by
  refine ⟨_, rfl, ?_⟩
  norm_num [Interp.call, documented_points, sortPairs, List.orderedInsert, pairLe, defaultCall, pyIndex, List.idxOf_cons]

/-- Lines 168-177: `zero([1,2,3,1], [1,2,3,4])`. -/
example : ∃ c, Interp.new .zero [1, 2, 3, 1] [1, 2, 3, 4] = .ok c ∧ c.call 1 = .ok (some 1) ∧ c.call (11 / 10) = .ok (some 0) ∧
    c.call 2 = .ok (some 2) ∧ c.call 4 = .ok (some 0) := by
  refine ⟨_, rfl, ?_⟩
  norm_num [Interp.call, documented_points, sortPairs, List.orderedInsert, pairLe, defaultCall, pyIndex, List.idxOf_cons]

/-- Lines 83-88: `flat(1.1)`. -/
example : flatCall (1.1 : ℝ) 0 = .ok 1.1 ∧ flatCall (1.1 : ℝ) 2.1 = .ok 1.1 := by
  norm_num [flatCall, documented_points, sortPairs, pyIndex]

/-- Lines 197-206: `left([1,3], [1,2])`. -/
example : ∃ c, Interp.new .left [1, 3] [1, 2] = .ok c ∧ c.call 0 = .ok (some 1) ∧ c.call 1 = .ok (some 1) ∧
    c.call 2 = .ok (some 1) ∧ c.call 4 = .ok (some 2) := by
  refine ⟨_, rfl, ?_⟩
  norm_num [Interp.call, documented_points, sortPairs, List.orderedInsert, pairLe, leftCall, bisectLeft, bisectLeftGo, pyIndex,
    List.idxOf_cons]

/-- Lines 248-257: `right([1,3], [1,2])`. -/
example : ∃ c, Interp.new .right [1, 3] [1, 2] = .ok c ∧ c.call 0 = .ok (some 1) ∧ c.call 1 = .ok (some 1) ∧
    c.call 2 = .ok (some 2) ∧ c.call 4 = .ok (some 2) := by
  refine ⟨_, rfl, ?_⟩
  norm_num [Interp.call, documented_points, sortPairs, List.orderedInsert, pairLe, rightCall, bisectRight, bisectRightGo, pyIndex,
    List.idxOf_cons]

/-- Lines 286-299: `nearest([1,2,3], [1,2,3])`. -/
example : ∃ c, Interp.new .nearest [1, 2, 3] [1, 2, 3] = .ok c ∧ c.call 0 = .ok (some 1) ∧ c.call 1 = .ok (some 1) ∧
    c.call 1.5 = .ok (some 1) ∧ c.call 1.51 = .ok (some 2) ∧ c.call 2 = .ok (some 2) ∧ c.call 4 = .ok (some 3) := by
  refine ⟨_, rfl, ?_⟩
  norm_num [Interp.call, documented_points, sortPairs, List.orderedInsert, pairLe, nearestCall, bisectLeft, bisectLeftGo, pyIndex,
    pyDiv, List.idxOf_cons]

/-- Lines 331-344: `linear([1,2,3], [2,3,4])`. -/
example : ∃ c, Interp.new .linear [1, 2, 3] [2, 3, 4] = .ok c ∧ c.call 0 = .ok (some 1) ∧ c.call 1 = .ok (some 2) ∧
    c.call 1.5 = .ok (some 2.5) ∧ c.call 1.51 = .ok (some 2.51) ∧ c.call 2 = .ok (some 3) ∧ c.call 4 = .ok (some 5) := by
  refine ⟨_, rfl, ?_⟩
  norm_num [Interp.call, documented_points, sortPairs, List.orderedInsert, pairLe, linearCall, bisectLeft, bisectLeftGo, pyIndex,
    pyDiv, List.idxOf_cons]

/-- Lines 372-386: `loglinear([1,2,3], [exp(2),exp(3),exp(4)])`. -/
example : ∃ c, Interp.new .loglinear [1, 2, 3] [Real.exp 2, Real.exp 3, Real.exp 4] = .ok c ∧ c.call 0 = .ok (some (Real.exp 1)) ∧
    c.call 1 = .ok (some (Real.exp 2)) ∧ c.call 1.5 = .ok (some (Real.exp 2.5)) ∧ c.call 1.51 = .ok (some (Real.exp 2.51)) ∧
    c.call 2 = .ok (some (Real.exp 3)) ∧ c.call 4 = .ok (some (Real.exp 5)) := by
  norm_num [-List.length_eq_zero_iff, Interp.new, Interp.call, documented_points, sortPairs, List.orderedInsert, pairLe, linearCall, bisectLeft, bisectLeftGo, pyIndex,
    pyDiv, List.idxOf_cons, Real.exp_pos, pyLog, pyMap]

/-- Lines 419-433, which use `loglinear` in the documentation of `loglinearrate`: `loglinear([1,2,3], [exp(1*2),exp(2*3),exp(2*4)])`. -/
example : ∃ c, Interp.new .loglinear [1, 2, 3] [Real.exp (1 * 2), Real.exp (2 * 3), Real.exp (2 * 4)] = .ok c ∧
    c.call 0 = .ok (some (Real.exp (-2))) ∧ c.call 1 = .ok (some (Real.exp 2)) ∧ c.call 1.5 = .ok (some (Real.exp 4)) ∧
    c.call 1.51 = .ok (some (Real.exp 4.04)) ∧ c.call 2 = .ok (some (Real.exp 6)) ∧ c.call 4 = .ok (some (Real.exp 10)) := by
  norm_num [-List.length_eq_zero_iff, Interp.new, Interp.call, documented_points, sortPairs, List.orderedInsert, pairLe, linearCall, bisectLeft, bisectLeftGo, pyIndex,
    pyDiv, List.idxOf_cons, Real.exp_pos, pyLog, pyMap]

/-- Lines 471-483: `logconstantrate([1,2,3], [exp(1*2),exp(2*3),exp(2*4)])`. -/
example : ∃ c, Interp.new .logconstantrate [1, 2, 3] [Real.exp (1 * 2), Real.exp (2 * 3), Real.exp (2 * 4)] = .ok c ∧
    c.call 1 = .ok (some (Real.exp 2)) ∧ c.call 1.5 = .ok (some (Real.exp 3)) ∧
    c.call 1.51 = .ok (some (Real.exp 3.02)) ∧ c.call 2 = .ok (some (Real.exp 6)) ∧ c.call 3 = .ok (some (Real.exp 8)) := by
  norm_num [-List.length_eq_zero_iff, Interp.new, Interp.call, documented_points, sortPairs, List.orderedInsert, pairLe, leftCall, bisectLeft, bisectLeftGo, pyIndex,
    pyDiv, List.idxOf_cons, Real.exp_pos, pyLog, pyMap, rateList, yAtZeroOf]

/-! ## `dcf/curves/curve.py` -/

/-- Lines 202-230: `Curve([0, 1, 2], [1, 2, 3])`, then `c[2] = 4` and `c[3] = 5`. -/
example : ∃ c c' c'', Curve.new [0, 1, 2] [1, 2, 3] none = .ok c ∧ c.domain = [0, 1, 2] ∧
    pyMap c.call c.domain = .ok [some 1, some 2, some 3] ∧ c.call 1.5 = .ok (some 2.5) ∧
    c.setitem 2 4 = .ok c' ∧ pyMap c'.call c'.domain = .ok [some 1, some 2, some 4] ∧
    c'.setitem 3 5 = .ok c'' ∧ pyMap c''.call c''.domain = .ok [some 1, some 2, some 4, some 5] := by
  norm_num [-List.length_eq_zero_iff, Curve.new, Curve.call, Curve.num, Curve.setitem, setPoint, fitFunc, linearScheme, Func.new, Func.call, Interp.new, Interp.call, documented_points,
    sortPairs, List.orderedInsert, pairLe, linearCall, bisectLeft, bisectLeftGo, pyIndex, pyLast, pyNum,
    pyDiv, pyMap, List.idxOf_cons]

/-- The curve `Curve([1, 4], [0, 1])` between and outside its points. -/
theorem documented_curve : ∃ c, Curve.new [1, 4] [0, 1] none = .ok c ∧
    ∀ x, c.call x = .ok (some (if x < 1 then 0 else if 4 < x then 1 else (x - 1) / 3)) := by
  obtain ⟨c, hc⟩ : ∃ c, Curve.new [1, 4] [0, 1] none = .ok c := by
    norm_num [Curve.new, fitFunc, linearScheme, Func.new, Interp.new, sortPairs, pairLe]
  refine ⟨c, hc, fun x => ?_⟩
  norm_num [Curve.new, fitFunc, linearScheme, Func.new, Interp.new, sortPairs, pairLe, documented_points] at hc
  subst hc
  by_cases h1 : x < 1
  · have : x ≠ 1 ∧ x ≠ 4 := ⟨by linarith, by linarith⟩
    norm_num [-List.length_eq_zero_iff, Curve.call, Func.call, pyIndex, h1, Interp.call, leftCall, this, bisectLeft, bisectLeftGo, (by linarith : ¬ 4 < x)]
  by_cases h2 : 4 < x
  · have : x ≠ 1 ∧ x ≠ 4 := ⟨by linarith, by linarith⟩
    norm_num [-List.length_eq_zero_iff, Curve.call, Func.call, pyIndex, pyLast, h1, h2, Interp.call, leftCall, this, bisectLeft, bisectLeftGo]
  · norm_num [-List.length_eq_zero_iff, Curve.call, Func.call, pyIndex, pyLast, h1, h2, Interp.call, linearCall, bisectLeft, bisectLeftGo, pyDiv]
    ring

/-- Lines 36-46: `rate_table(Curve([1, 4], [0, 1]), x_grid=(0, 1, 2, 3, 4, 5), y_grid=(.0, .25, .5, .75))`. -/
example : ∃ c, Curve.new [1, 4] [0, 1] none = .ok c ∧
    rateTable c.call [0, 1, 2, 3, 4, 5] (some [0, 0.25, 0.5, 0.75]) = .ok ([0, 0.25, 0.5, 0.75],
      [(0, [some 0, some 0, some 0, some 0]),
       (1, [some 0, some (1 / 12), some (1 / 6), some (1 / 4)]),
       (2, [some (1 / 3), some (5 / 12), some (1 / 2), some (7 / 12)]),
       (3, [some (2 / 3), some (3 / 4), some (5 / 6), some (11 / 12)]),
       (4, [some 1, some 1, some 1, some 1]),
       (5, [some 1, some 1, some 1, some 1])]) := by
  obtain ⟨c, hc, h⟩ := documented_curve
  refine ⟨c, hc, ?_⟩
  norm_num [rateTable, tableRows, pyMap, pyLast, h]

/-- Lines 383-391: `DateCurve((0.5, 1.0, 1.5, 2.0), (1, 2, 3, 4))`. -/
example : ∃ c, DateCurve.new floatCal [0.5, 1, 1.5, 2] [1, 2, 3, 4] none none .default linearScheme = .ok c ∧
    c.domain = [0.5, 1, 1.5, 2] ∧ c.call floatCal 0.75 = .ok (some 1.5) := by
  norm_num [-List.length_eq_zero_iff, DateCurve.new, DateCurve.update, DateCurve.call, DateCurve.time, DateCurve.origin, DateCurve.dayCount,
    DayCountArg.eval, floatCal, pyDate, Dict.get, fitFunc, linearScheme, Func.new, Func.call, Interp.new, Interp.call, documented_points,
    sortPairs, List.orderedInsert, pairLe, linearCall, leftCall, bisectLeft, bisectLeftGo, pyIndex, pyLast, pyNum, pyDiv, pyMap]

/-! ## `dcf/cashflows` -/

/-- `cashflow.py` lines 99-114: `CashFlowList([0, 1], [-100., 100.])`. -/
example : ∃ l : CFList ℝ FloatPeriod, CFList.new [0, 1] (.list [-100, 100]) none = .ok l ∧ l.domain = [0, 1] ∧
    l.getitem floatCal 0 = .ok (-100) ∧ l.getitems floatCal l.domain = .ok [-100, 100] ∧
    l.getitems floatCal [-1, 0, 1, 2] = .ok [0, -100, 100, 0] := by
  norm_num [CFList.new, CFList.ofPayoffs, NumArg.expand, CFList.getitem, CFList.getitems, pyMap, Dict.ofPairs, Dict.set, Dict.get, PayOff.eval]

/-- `lambda x: x*x` -/
def documented_payoff : ModelArg ℝ → Py ℝ
  | .fwd (.num x) => .ok (x * x)
  | _ => .error .type

/-- `contingent.py` lines 55-62: payoffs `lambda x: x*x`, model `4`. -/
example : ∃ l : CFList ℝ FloatPeriod, CFList.newContingent ([1, 2] : List ℝ)
      (some [.fn documented_payoff, .fn documented_payoff]) none (.fwd (.num 4)) = .ok l ∧
    l.getitems floatCal l.domain = .ok [16, 16] ∧
    CFList.getitems floatCal { l with arg := .fwd (.num 2) } l.domain = .ok [4, 4] := by
  norm_num [CFList.newContingent, CFList.ofPayoffs, CFList.getitem, CFList.getitems, pyMap, Dict.ofPairs, Dict.set, Dict.get, PayOff.eval, documented_payoff]

/-- `payoffs.py` lines 45-48: `FixedCashFlowPayOff(123.456)()`. -/
example : (PayOff.fixed 123.456 : PayOff ℝ FloatPeriod).eval floatCal (.fwd .none) = .ok 123.456 := rfl

/-- The forward curve of `payoffs.py` lines 84 and 362: `CashRateCurve(domain=[0.0, 1.0, 2.0], data=[-0.005, 0.00, 0.001], forward_tenor=0.25)`. -/
theorem documented_forward (same : Bool) (limit : ℕ) : ∃ c, IRCurve.new floatCal .cash [0, 1, 2] [-0.005, 0, 0.001] none none .default (some (.num 0.25)) = .ok c ∧
    c.cashRate floatCal same (limit + 1) 1.25 none none = .ok 0.00025 ∧ ∀ s e, c.dayCount floatCal s e = .ok (e - s) := by
  norm_num [-List.length_eq_zero_iff, IRCurve.new, IRClass.dflt, IRCurve.cashRate, IRCurve.cashStop, IRCurve.call, RateCurve.call, DateCurve.num,
    DateCurve.new, DateCurve.update, DateCurve.call, DateCurve.time, DateCurve.origin, DateCurve.dayCount, IRCurve.dayCount, IRCurve.forwardTenor,
    DayCountArg.eval, floatCal, pyDate, Dict.get, fitFunc, linearScheme, Func.new, Func.call, Interp.new, Interp.call, documented_points,
    sortPairs, List.orderedInsert, pairLe, linearCall, leftCall, bisectLeft, bisectLeftGo, pyIndex, pyLast, pyNum, pyDiv, pyMap]

/-- `payoffs.py` lines 83-89: `RateCashFlowPayOff(start=1.25, end=1.5, amount=1.0, fixed_rate=0.005)` without and with forward curve. -/
example (same : ℝ → Bool) (limit : ℕ) : ∃ c, IRCurve.new floatCal .cash [0, 1, 2] [-0.005, 0, 0.001] none none .default (some (.num 0.25)) = .ok c ∧
    let cf : PayOff ℝ FloatPeriod := .rate ⟨1.25, 1.5, 1, none, none, some 0.005⟩
    cf.eval floatCal (.fwd .none) = .ok 0.00125 ∧ cf.eval floatCal (.fwd (c.asFwd floatCal same (limit + 1))) = .ok 0.0013125 := by
  obtain ⟨c, hc, h, _⟩ := documented_forward (same 1.25) limit
  refine ⟨c, hc, ?_, ?_⟩
  · norm_num [PayOff.eval, RatePay.details, RatePay.forwardAt, ModelArg.truthy, Fwd.truthy, RatePay.tau, floatCal]
  · norm_num at h
    norm_num [PayOff.eval, RatePay.details, RatePay.forwardAt, ModelArg.truthy, ModelArg.curve, Fwd.truthy, Fwd.rate, IRCurve.asFwd, Cal.minus, h]
    norm_num [RatePay.tau, floatCal]

/-- `payoffs.py` lines 356-370: `ContingentRateCashFlowPayOff(start=1.25, end=1.5, amount=1.0, fixed_rate=0.005, floor_strike=0.002)` without
curve, with forward curve and with an `IntrinsicOptionPayOffModel`. -/
example (same : ℝ → Bool) (limit : ℕ) (b : Bool) : ∃ c, IRCurve.new floatCal .cash [0, 1, 2] [-0.005, 0, 0.001] none none .default (some (.num 0.25)) = .ok c ∧
    let cf : PayOff ℝ FloatPeriod := .contingentRate ⟨⟨1.25, 1.5, 1, none, none, some 0.005⟩, some 0.002, none⟩
    let f := c.asFwd floatCal same (limit + 1)
    cf.eval floatCal (.fwd .none) = .ok 0.00125 ∧ cf.eval floatCal (.fwd f) = .ok 0.0013125 ∧
    cf.eval floatCal (.model ⟨some 0, f, .none, none, b, intrinsicFormula⟩) = .ok 0.00175 := by
  obtain ⟨c, hc, h, hd⟩ := documented_forward (same 1.25) limit
  norm_num at h
  refine ⟨c, hc, ?_, ?_, ?_⟩
  · norm_num [PayOff.eval, ContingentRatePay.cashflow, RatePay.details, RatePay.forwardAt, ModelArg.truthy, ModelArg.curve, Fwd.truthy, RatePay.tau, floatCal]
  · norm_num [PayOff.eval, ContingentRatePay.cashflow, RatePay.details, RatePay.forwardAt, ModelArg.truthy, ModelArg.curve, Fwd.truthy, Fwd.rate, IRCurve.asFwd, Cal.minus, h]
    norm_num [RatePay.tau, floatCal]
  · norm_num [PayOff.eval, ContingentRatePay.cashflow, RatePay.details, RatePay.forwardAt, ModelArg.truthy, ModelArg.curve, Fwd.truthy, Fwd.rate, IRCurve.asFwd, Cal.minus, h,
      optlet, OptModel.details, OptModel.putValue, OptModel.time, Fwd.optionForward, Vol.eval, Vol.dayCount, Fwd.dayCount, hd, pyKey, OptDetails.fwd, OptDetails.flat]
    norm_num [RatePay.tau, floatCal]

/-! ## `dcf/pricer.py` -/

/-- Lines 241-272: interest accrued of a five year bond with a coupon of 0.1% on a notional of one million. -/
example (w : World ℝ FloatPeriod) (coupon redemption : CFList ℝ FloatPeriod)
    (hc : CFList.newRate floatCal (fun a b => .ok (a - (b - a))) [1, 2, 3, 4, 5] (.scalar 1000000) (some 0) none none none 0.001 .none = .ok coupon)
    (hr : CFList.newFixed [5] (.scalar 1000000) none = .ok redemption)
    (h0 : (w.lists 0).domain = redemption.domain ∧ (w.lists 0).flows = redemption.flows)
    (h1 : (w.lists 1).domain = coupon.domain ∧ (w.lists 1).flows = coupon.flows ∧ (w.lists 1).hasForward ∧ w.arg (w.lists 1).arg = .fwd .none)
    (domain : List ℝ) (origin : Option ℝ) :
    accrued floatCal w 3.25 (.legs [.list 0, .list 1] domain origin) = .ok 250 ∧
    accrued floatCal w 3.5 (.legs [.list 0, .list 1] domain origin) = .ok 500 ∧
    accrued floatCal w 4.5 (.legs [.list 0, .list 1] domain origin) = .ok 500 := by
  norm_num [CFList.newRate, accrualStarts, ratePays, CFList.ofPayoffs, NumArg.expand, List.replicate, pyMap, Cal.minus, Dict.ofPairs, Dict.set] at hc
  norm_num [CFList.newFixed, CFList.ofPayoffs, NumArg.expand, Dict.ofPairs, Dict.set] at hr
  subst hc hr
  obtain ⟨h01, h02⟩ := h0
  obtain ⟨h11, h12, h13, h14⟩ := h1
  norm_num at h01 h02 h11 h12
  norm_num [accrued, accruedLegs, h01, h02, h11, h12, pyMap, accruedAt, Dict.get, accruedFlow, PayOff.ratePay?, RatePay.tau, World.forwardCurve, h13, h14,
    PayOff.eval, RatePay.details, RatePay.forwardAt, ModelArg.truthy, Fwd.truthy, pyDiv, pySum]
  norm_num [floatCal]

end Dcf
