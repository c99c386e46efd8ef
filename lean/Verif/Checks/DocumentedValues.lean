import Verif.Checks.Documented
import Mathlib.Analysis.Complex.Exponential

/-!
# Documented prices

No claim rests on this file.  It compares the model with the program: the docstrings print prices that involve exponentials.
Each `example` takes the arguments of a docstring of `/repo/dcf` and shows that the value of the model agrees with the number
printed there.
-/

namespace Dcf

/-- A flat zero rate curve with origin `0`. -/
structure DocumentedFlat (c : IRCurve ℝ FloatPeriod) (r : ℝ) : Prop where
  cls : c.cls = .zero
  origin : c.base.origin = some 0
  dayCount : ∀ s t, c.dayCount floatCal s t = .ok (t - s)
  call : ∀ t, c.call floatCal t = .ok r

theorem DocumentedFlat.factor {c : IRCurve ℝ FloatPeriod} {r : ℝ} (h : DocumentedFlat c r) (same : Bool) (t : ℝ) :
    c.factor floatCal same 0 t = .ok (Real.exp (-(r * t))) := by
  by_cases ht : t = 0
  · subst ht; simp [IRCurve.factor, h.cls]
  · cases same <;> simp [IRCurve.factor, IRCurve.rate, IRCurve.zeroRateOf, IRCurve.zeroForward, continuousCompounding, h.cls, h.origin, h.dayCount, h.call, pyDate,
      pyDiv, ht, Ne.symm ht]

theorem DocumentedFlat.discount {c : IRCurve ℝ FloatPeriod} {r : ℝ} (h : DocumentedFlat c r) (same : Bool) (t : ℝ) :
    c.obj.discountFactor floatCal same 0 t = .ok (Real.exp (-(r * t))) := h.factor same t

/-- `ZeroRateCurve([0], [r])` -/
theorem documented_zero (r : ℝ) : ∃ c, IRCurve.new floatCal .zero [0] [r] none none .default none = .ok c ∧ DocumentedFlat c r ∧ c.spread = none := by
  refine ⟨_, rfl, ⟨rfl, rfl, fun s t => ?_, fun t => ?_⟩, rfl⟩
  · simp [IRCurve.dayCount, DateCurve.dayCount, DayCountArg.eval, floatCal]
  · obtain rfl | h := eq_or_ne t 0
    · norm_num [-List.length_eq_zero_iff, IRClass.dflt, IRCurve.call, RateCurve.call, DateCurve.num, DateCurve.asSpread,
      DateCurve.new, DateCurve.update, DateCurve.call, DateCurve.time, DateCurve.origin, DateCurve.dayCount, IRCurve.dayCount,
      DayCountArg.eval, floatCal, pyDate, Dict.get, fitFunc, linearScheme, Func.new, Func.call, Interp.new, Interp.call, documented_points,
      sortPairs, List.orderedInsert, pairLe, linearCall, leftCall, bisectLeft, bisectLeftGo, pyIndex, pyLast, pyNum, pyDiv, pyMap]
    · rcases lt_or_gt_of_ne h with g | g <;> norm_num [h, g, g.le, not_lt_of_gt g, not_le_of_gt g, -List.length_eq_zero_iff, IRClass.dflt, IRCurve.call, RateCurve.call, DateCurve.num, DateCurve.asSpread,
      DateCurve.new, DateCurve.update, DateCurve.call, DateCurve.time, DateCurve.origin, DateCurve.dayCount, IRCurve.dayCount,
      DayCountArg.eval, floatCal, pyDate, Dict.get, fitFunc, linearScheme, Func.new, Func.call, Interp.new, Interp.call, documented_points,
      sortPairs, List.orderedInsert, pairLe, linearCall, leftCall, bisectLeft, bisectLeftGo, pyIndex, pyLast, pyNum, pyDiv, pyMap]

/-- `curve.spread = DateCurve([0], [shift])` -/
theorem DocumentedFlat.shifted {c : IRCurve ℝ FloatPeriod} {r : ℝ} (h : DocumentedFlat c r) (hs : c.spread = none) (shift : ℝ) :
    ∃ s, DateCurve.new floatCal [0] [shift] none none .default linearScheme = .ok s ∧
      DocumentedFlat { c with spread := some (s.asSpread floatCal) } (r + shift) := by
  refine ⟨_, rfl, ⟨h.cls, h.origin, h.dayCount, fun t => ?_⟩⟩
  have hc := h.call t
  simp only [IRCurve.call, RateCurve.call, hs, Py.ok_bind, Py.bind_eq_ok] at hc ⊢
  obtain ⟨b, hb, x, hx, hc⟩ := hc
  simp [pyNum] at hc
  refine ⟨some shift, ?_, b, hb, x, hx, shift, rfl, by rw [hc]⟩
  obtain rfl | h := eq_or_ne t 0
  · norm_num [-List.length_eq_zero_iff, IRClass.dflt, IRCurve.call, RateCurve.call, DateCurve.num, DateCurve.asSpread,
      DateCurve.new, DateCurve.update, DateCurve.call, DateCurve.time, DateCurve.origin, DateCurve.dayCount, IRCurve.dayCount,
      DayCountArg.eval, floatCal, pyDate, Dict.get, fitFunc, linearScheme, Func.new, Func.call, Interp.new, Interp.call, documented_points,
      sortPairs, List.orderedInsert, pairLe, linearCall, leftCall, bisectLeft, bisectLeftGo, pyIndex, pyLast, pyNum, pyDiv, pyMap]
  · rcases lt_or_gt_of_ne h with g | g <;> norm_num [h, g, g.le, not_lt_of_gt g, not_le_of_gt g, -List.length_eq_zero_iff, IRClass.dflt, IRCurve.call, RateCurve.call, DateCurve.num, DateCurve.asSpread,
      DateCurve.new, DateCurve.update, DateCurve.call, DateCurve.time, DateCurve.origin, DateCurve.dayCount, IRCurve.dayCount,
      DayCountArg.eval, floatCal, pyDate, Dict.get, fitFunc, linearScheme, Func.new, Func.call, Interp.new, Interp.call, documented_points,
      sortPairs, List.orderedInsert, pairLe, linearCall, leftCall, bisectLeft, bisectLeftGo, pyIndex, pyLast, pyNum, pyDiv, pyMap]

/-- Truncated exponential series. -/
theorem documented_exp {x : ℝ} (hx : |x| ≤ 1) :
    |Real.exp x - ∑ m ∈ Finset.range 13, x ^ m / m.factorial| ≤ |x| ^ 13 * (14 / (6227020800 * 13)) := by
  have h := Real.exp_bound hx (n := 13) (by norm_num)
  norm_num [Nat.factorial] at h ⊢
  exact h

theorem documented_bind {σ α β : Type} (m : PyM σ α) (f : α → PyM σ β) (s : σ) :
    (m >>= f) s = match m s with
      | (.ok a, s') => f a s'
      | (.error e, s') => (.error e, s') := rfl

theorem documented_pure {σ α : Type} (a : α) (s : σ) : (pure a : PyM σ α) s = (.ok a, s) := rfl

/-- Lines 79-87: present value of four payments of 100, discounted by 5%, at the start and at the end of the day. -/
example (w : World ℝ FloatPeriod) (c : IRCurve ℝ FloatPeriod) (l : CFList ℝ FloatPeriod) (same : Bool)
    (hc : IRCurve.new floatCal .zero [0] [0.05] none none .default none = .ok c)
    (hl : CFList.new [0, 1, 2, 3] (.list [100, 100, 100, 100]) none = .ok l)
    (h0 : w.curves 0 = c.obj)
    (h1 : (w.lists 0).domain = l.domain ∧ (w.lists 0).flows = l.flows ∧ (w.lists 0).hasModel = false ∧ w.arg (w.lists 0).arg = .fwd .none) :
    ∃ sod flow, pvOn floatCal 0 same (some 0) (.list 0) w = (.ok sod, w) ∧ |sod - 371.67748189617316| ≤ 1e-11 ∧
      l.getitem floatCal 0 = .ok flow ∧ |sod - flow - 271.67748189617316| ≤ 1e-11 := by
  obtain ⟨c', hc', hf, -⟩ := documented_zero 0.05
  obtain rfl : c = c' := by rw [hc] at hc'; exact Except.ok.inj hc'
  norm_num [CFList.new, CFList.ofPayoffs, NumArg.expand, Dict.ofPairs, Dict.set] at hl
  subst hl
  obtain ⟨h11, h12, h13, h14⟩ := h1
  norm_num at h11 h12
  refine ⟨100 * (1 + Real.exp (-0.05) + Real.exp (-0.1) + Real.exp (-0.15)), 100, ?_, ?_, ?_, ?_⟩
  · simp only [pvOn, pv, pvAt, pvList, enterModel, leaveModel, documented_bind, PyM.get, PyM.lift, World.list, h0, h11, h13]
    norm_num [h12, h14, payDates, CFList.getitems, CFList.getitem, pyMap, Dict.get, PayOff.eval, discountSum, pyDate, hf.discount, pySum]
    ring
  · have h1 := abs_le.1 (documented_exp (x := -0.05) (by norm_num [abs_le]))
    have h2 := abs_le.1 (documented_exp (x := -0.1) (by norm_num [abs_le]))
    have h3 := abs_le.1 (documented_exp (x := -0.15) (by norm_num [abs_le]))
    norm_num [Finset.sum_range_succ, Nat.factorial, abs_of_neg] at h1 h2 h3
    rw [abs_le]
    constructor <;> norm_num <;> linarith
  · norm_num [CFList.getitem, Dict.get, PayOff.eval]
  · have h1 := abs_le.1 (documented_exp (x := -0.05) (by norm_num [abs_le]))
    have h2 := abs_le.1 (documented_exp (x := -0.1) (by norm_num [abs_le]))
    have h3 := abs_le.1 (documented_exp (x := -0.15) (by norm_num [abs_le]))
    norm_num [Finset.sum_range_succ, Nat.factorial, abs_of_neg] at h1 h2 h3
    rw [abs_le]
    constructor <;> norm_num <;> linarith

/-- The bond of lines 157-160, 331-334 and 398-401: redemption of one million after five years and coupons of 0.1%. -/
structure DocumentedBond (w : World ℝ FloatPeriod) (c : IRCurve ℝ FloatPeriod) : Prop where
  curve : w.curves 0 = c.obj
  redemption : ∃ l, CFList.newFixed [5] (.scalar 1000000) none = .ok l ∧ (w.lists 0).domain = l.domain ∧ (w.lists 0).flows = l.flows
  coupon : ∃ l, CFList.newRate floatCal (fun a b => .ok (a - (b - a))) [1, 2, 3, 4, 5] (.scalar 1000000) (some 0) none none none 0.001 .none = .ok l ∧
    (w.lists 1).domain = l.domain ∧ (w.lists 1).flows = l.flows
  models : (w.lists 0).hasModel = false ∧ (w.lists 1).hasModel = false
  forward : (w.lists 0).arg = .fwd (fun _ => .none) ∧ (w.lists 1).arg = .fwd (fun _ => .none)

theorem documented_bond {w : World ℝ FloatPeriod} {c : IRCurve ℝ FloatPeriod} {r : ℝ} (h : DocumentedBond w c) (hf : DocumentedFlat c r) (same : Bool)
    (v : Option ℝ) (hv : v = none ∨ v = some 0) (domain : List ℝ) (origin : Option ℝ) :
    pvOn floatCal 0 same v (.legs [.list 0, .list 1] domain origin) w = (.ok (1000000 * Real.exp (-(r * 5)) +
      1000 * (Real.exp (-r) + Real.exp (-(r * 2)) + Real.exp (-(r * 3)) + Real.exp (-(r * 4)) + Real.exp (-(r * 5)))), w) := by
  obtain ⟨h0, ⟨l, hr, h01, h02⟩, ⟨l', hc, h11, h12⟩, ⟨h03, h13⟩, ⟨h04, h14⟩⟩ := h
  norm_num [CFList.newRate, accrualStarts, ratePays, CFList.ofPayoffs, NumArg.expand, List.replicate, pyMap, Cal.minus, Dict.ofPairs, Dict.set] at hc
  norm_num [CFList.newFixed, CFList.ofPayoffs, NumArg.expand, Dict.ofPairs, Dict.set] at hr
  subst hc hr
  norm_num at h01 h02 h11 h12
  have ho := hf.origin
  suffices hp : ∀ same, pvAt floatCal c.obj same (some 0) (.legs [.list 0, .list 1] domain origin) w = (.ok (1000000 * Real.exp (-(r * 5)) +
      1000 * (Real.exp (-r) + Real.exp (-(r * 2)) + Real.exp (-(r * 3)) + Real.exp (-(r * 4)) + Real.exp (-(r * 5)))), w) by
    rcases hv with rfl | rfl
    · have : c.obj.base.origin = some 0 := ho
      simp only [pvOn, pv, h0, this, hp]
    · simp only [pvOn, pv, h0, hp]
  intro same
  have e0 : pvList floatCal c.obj same (some 0) 0 w = (.ok (1000000 * Real.exp (-(r * 5))), w) := by
    simp only [pvList, enterModel, leaveModel, documented_bind, PyM.get, PyM.lift, World.list, h01, h03, h04, World.arg]
    norm_num [h02, payDates, CFList.getitems, CFList.getitem, pyMap, Dict.get, PayOff.eval, discountSum, pyDate, hf.discount, pySum]
    ring
  have e1 : pvList floatCal c.obj same (some 0) 1 w = (.ok (1000 * (Real.exp (-r) + Real.exp (-(r * 2)) + Real.exp (-(r * 3)) + Real.exp (-(r * 4)) +
      Real.exp (-(r * 5)))), w) := by
    have ha : w.arg (w.lists 1).arg = .fwd .none := by simp [World.arg, h14]
    have hp : ∀ s e : ℝ, (PayOff.rate ⟨s, e, 1000000, none, none, some (1 / 1000)⟩ : PayOff ℝ FloatPeriod).eval floatCal (.fwd .none) = .ok ((e - s) * 1000) := by
      intro s e
      norm_num [PayOff.eval, RatePay.details, RatePay.forwardAt, ModelArg.truthy, Fwd.truthy, RatePay.tau]
      norm_num [floatCal]
      ring
    simp only [pvList, enterModel, leaveModel, documented_bind, PyM.get, PyM.lift, World.list, h11, h13]
    norm_num [h12, ha, payDates, CFList.getitems, CFList.getitem, pyMap, Dict.get, hp, discountSum, pyDate, hf.discount, pySum]
    ring
  simp only [pvAt, pvLegs, documented_bind, documented_pure, e0, e1]
  simp [pySum]

/-- The exponential series up to the twelfth power. -/
noncomputable def documented_series (x : ℝ) : ℝ := ∑ m ∈ Finset.range 13, x ^ m / m.factorial

/-- The exponentials of the bond at rates up to 1.51%. -/
theorem documented_value {r : ℝ} (h0 : 0 ≤ r) (h1 : r ≤ 0.0151) :
    |1000000 * Real.exp (-(r * 5)) + 1000 * (Real.exp (-r) + Real.exp (-(r * 2)) + Real.exp (-(r * 3)) + Real.exp (-(r * 4)) + Real.exp (-(r * 5))) -
      (1001000 * documented_series (-(r * 5)) + 1000 * (documented_series (-(r * 1)) + documented_series (-(r * 2)) + documented_series (-(r * 3)) +
        documented_series (-(r * 4))))| ≤ 1e-10 := by
  have h : ∀ k : ℝ, 0 ≤ k → k ≤ 5 → |Real.exp (-(r * k)) - documented_series (-(r * k))| ≤ 1e-17 := by
    intro k hk hk'
    have hx : |-(r * k)| ≤ 0.0755 := by
      rw [abs_neg, abs_of_nonneg (by positivity)]
      nlinarith
    refine (documented_exp (hx.trans (by norm_num))).trans ?_
    calc |-(r * k)| ^ 13 * (14 / (6227020800 * 13)) ≤ 0.0755 ^ 13 * (14 / (6227020800 * 13)) := by gcongr
      _ ≤ 1e-17 := by norm_num
  have k1 := abs_le.1 (h 1 (by norm_num) (by norm_num))
  have k2 := abs_le.1 (h 2 (by norm_num) (by norm_num))
  have k3 := abs_le.1 (h 3 (by norm_num) (by norm_num))
  have k4 := abs_le.1 (h 4 (by norm_num) (by norm_num))
  have k5 := abs_le.1 (h 5 (by norm_num) (by norm_num))
  have e : Real.exp (-(r * 1)) = Real.exp (-r) := by rw [mul_one]
  rw [e] at k1
  rw [abs_le]
  constructor <;> linarith [k1.1, k1.2, k2.1, k2.2, k3.1, k3.2, k4.1, k4.2, k5.1, k5.2]

/-- Lines 186-188: present value of the bond at a rate of 1.5%. -/
example (w : World ℝ FloatPeriod) (c : IRCurve ℝ FloatPeriod) (same : Bool) (h : DocumentedBond w c)
    (hc : IRCurve.new floatCal .zero [0] [0.015] none none .default none = .ok c) (domain : List ℝ) (origin : Option ℝ) :
    ∃ pv, pvOn floatCal 0 same (some 0) (.legs [.list 0, .list 1] domain origin) w = (.ok pv, w) ∧ |pv - 932524.5493034503| ≤ 1e-9 := by
  obtain ⟨c', hc', hf, -⟩ := documented_zero 0.015
  obtain rfl : c = c' := by rw [hc] at hc'; exact Except.ok.inj hc'
  refine ⟨_, documented_bond h hf same (some 0) (.inr rfl) domain origin, ?_⟩
  have := abs_le.1 (documented_value (r := 0.015) (by norm_num) (by norm_num))
  norm_num [documented_series, Finset.sum_range_succ, Nat.factorial] at this ⊢
  rw [abs_le]
  constructor <;> norm_num <;> linarith

/-- Lines 405-407: basis point value of the bond at a rate of 1.5%. -/
example (w : World ℝ FloatPeriod) (c : IRCurve ℝ FloatPeriod) (same : Bool) (h : DocumentedBond w c)
    (hc : IRCurve.new floatCal .zero [0] [0.015] none none .default none = .ok c) (domain : List ℝ) (origin : Option ℝ) :
    ∃ bpv w', basisPointValue floatCal 0 same (.legs [.list 0, .list 1] domain origin) none none 0.0001 w = (.ok bpv, w') ∧
      |bpv - -465.1755130274687| ≤ 1e-9 := by
  obtain ⟨c', hc', hf, hs⟩ := documented_zero 0.015
  obtain rfl : c = c' := by rw [hc] at hc'; exact Except.ok.inj hc'
  obtain ⟨s, hd, hf'⟩ := hf.shifted hs 0.0001
  let c' : IRCurve ℝ FloatPeriod := { c with spread := some (s.asSpread floatCal) }
  let w' : World ℝ FloatPeriod := w.setCurve 0 c'.obj
  have h' : DocumentedBond w' c' := ⟨by simp [w', World.setCurve], h.redemption, h.coupon, h.models, h.forward⟩
  have e := documented_bond h hf same none (.inl rfl) domain origin
  have e' := documented_bond h' hf' same none (.inl rfl) domain origin
  have ho : (w.curves 0).base.origin = some 0 := by rw [h.curve]; exact hf.origin
  have hsp : (w.curves 0).spread = none := by rw [h.curve]; exact hs
  have hw : PyM.forM (parallelShift floatCal 0.0001) [0] w = (.ok (), w') := by
    simp only [PyM.forM, documented_bind, parallelShift, shiftCurve, PyM.get, PyM.lift, ho, pyDate, hd, setSpread, RateCurve.setSpread, hsp]
    simp [documented_pure, w', c', IRCurve.obj, h.curve]
  have k := documented_value (r := 0.015) (by norm_num) (by norm_num)
  have k' := documented_value (r := 0.015 + 0.0001) (by norm_num) (by norm_num)
  generalize 1000000 * Real.exp (-(0.015 * 5)) + 1000 * (Real.exp (-0.015) + Real.exp (-(0.015 * 2)) + Real.exp (-(0.015 * 3)) + Real.exp (-(0.015 * 4)) +
    Real.exp (-(0.015 * 5))) = x at e k
  generalize 1000000 * Real.exp (-((0.015 + 0.0001) * 5)) + 1000 * (Real.exp (-(0.015 + 0.0001)) + Real.exp (-((0.015 + 0.0001) * 2)) +
    Real.exp (-((0.015 + 0.0001) * 3)) + Real.exp (-((0.015 + 0.0001) * 4)) + Real.exp (-((0.015 + 0.0001) * 5))) = y at e' k'
  refine ⟨(y - x) / 0.0001 * (1 / 10000), (PyM.forM (fun a => setSpread a none) [0] w').2, ?_, ?_⟩
  · simp only [basisPointValue, documented_bind, e, Option.getD_none, hw, e']
    norm_num [PyM.forM, documented_bind, documented_pure, setSpread, RateCurve.setSpread, PyM.lift, pyDiv]
  · have j := abs_le.1 k
    have j' := abs_le.1 k'
    norm_num [documented_series, Finset.sum_range_succ, Nat.factorial] at j j' ⊢
    rw [abs_le]
    constructor <;> norm_num <;> linarith

end Dcf
