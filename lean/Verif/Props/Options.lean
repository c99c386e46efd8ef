import Verif.Props.Payoff

/-! # Option payoffs: C51-C53, C83, C84 -/

set_option linter.unusedSectionVars false
set_option linter.unusedSimpArgs false
set_option linter.unusedVariables false

namespace Dcf

open Spec

section
variable {D P : Type} {cal : Cal D P}

/-! ## C53: put-call parity -/

/-- C53: whenever the model knows a forward, the put is the call plus strike minus forward: for every formula, every
volatility (also none or 0), every time (also 0), with and without strike; both raise or both return. -/
theorem C53_value {m : OptModel D} {date : D} {strike : Option ℝ} {d : OptDetails D} {F : ℝ}
    (hd : m.details cal date strike = .ok d) (hF : d.forward = some F) :
    m.putValue cal date strike = (fun c => d.strike - F + c) <$> m.callValue cal date strike := by
  simp only [OptModel.putValue, OptModel.callValue, hd, Py.ok_bind, OptDetails.fwd, hF]
  split_ifs with h
  · simp only [Py.map_ok, Except.ok.injEq]
    rcases le_total d.strike F with h | h
    · rw [max_eq_right (by linarith), max_eq_left (by linarith)]; ring
    · rw [max_eq_left (by linarith), max_eq_right (by linarith)]; ring
  · cases m.formula.price (.ok d.time) d.strike F (d.volatility.getD 0) <;> rfl

/-- C53: the strike of the details is the given one, and the forward if none is given. -/
theorem C53_strike {m : OptModel D} {date : D} {strike : Option ℝ} {d : OptDetails D} {F : ℝ}
    (hd : m.details cal date strike = .ok d) (hF : d.forward = some F) : d.strike = strike.getD F := by
  simp only [OptModel.details, Py.bind_eq_ok] at hd
  obtain ⟨f, -, v, -, t, -, h⟩ := hd
  obtain rfl := Except.ok.inj h
  simp only at hF ⊢
  cases strike <;> simp [hF]

/-- C53: at the money put and call have the same value. -/
theorem C53_atm {m : OptModel D} {date : D} {d : OptDetails D} {F : ℝ} (hd : m.details cal date none = .ok d)
    (hF : d.forward = some F) : m.putValue cal date none = m.callValue cal date none := by
  rw [C53_value hd hF, C53_strike hd hF]
  cases m.callValue cal date none <;> simp

/-- C53: the put delta is the call delta minus one (times the scale 0.0001). -/
theorem C53_delta (m : OptModel D) (date : D) (strike : Option ℝ) :
    m.putDelta cal date strike = (fun x => x - 0.0001) <$> m.callDelta cal date strike := by
  unfold OptModel.putDelta
  cases m.callDelta cal date strike with
  | error e => rfl
  | ok x => simp

example : ∃ d : OptDetails ℝ, (OptModel.mk (some 0) (.num 100) (.num (1 / 5)) none false (normalFormula codeDist)).details
    floatCal 1 (some 90) = .ok d ∧ d.forward = some 100 ∧ d.flat = false := by
  refine ⟨⟨some 0, some 1, some 100, 90, some (1 / 5), 1⟩, ?_, rfl, by simp [OptDetails.flat]⟩
  simp [OptModel.details, Fwd.optionForward, Fwd.truthy, Vol.eval, OptModel.time, Vol.dayCount, Fwd.dayCount, floatCal]

/-! ## C83: a flat forward of zero -/

/-- A model with the number `x` as forward curve. -/
theorem details_num {m : OptModel D} {x : ℝ} (hx : x ≠ 0) (hf : m.forward = .num x) {date : D} {v : Option ℝ} {t : ℝ}
    (hv : m.vol.eval date = .ok v) (ht : m.time cal date = .ok t) (k : ℝ) :
    m.details cal date (some k) = .ok ⟨m.valuation, some date, some x, k, v, t⟩ := by
  simp [OptModel.details, hf, Fwd.optionForward, Fwd.truthy, hx, hv, ht]

/-- The models of the package, all of which look at the forward. -/
inductive LooksAtForward : OptFormula → Prop
  | intrinsic : LooksAtForward intrinsicFormula
  | binaryIntrinsic : LooksAtForward binaryIntrinsicFormula
  | normal (N : NormalDist) : LooksAtForward (normalFormula N)
  | binaryNormal (N : NormalDist) : LooksAtForward (binaryNormalFormula N)
  | logNormal (N : NormalDist) : LooksAtForward (logNormalFormula N)
  | binaryLogNormal (N : NormalDist) : LooksAtForward (binaryLogNormalFormula N)
  | displaced (N : NormalDist) (a : ℝ) : LooksAtForward (displacedFormula N a)
  | binaryDisplaced (N : NormalDist) (a : ℝ) : LooksAtForward (binaryDisplacedFormula N a)
  | spread {f : OptFormula} (s : Option ℝ) : LooksAtForward f → LooksAtForward (binaryFormula f s)

/-- C83: with the number 0 (or nothing) as forward curve no call or put can be valued: TypeError (with every model of the package, and
with any other one if there is no volatility or no time). -/
theorem C83_violated {m : OptModel D} (hf : m.forward = .num 0 ∨ m.forward = .none) {date : D} {v : Option ℝ} {t : ℝ}
    (hv : m.vol.eval date = .ok v) (ht : m.time cal date = .ok t)
    (_hm : v.getD 0 = 0 ∨ t = 0 ∨ (0 < t ∧ LooksAtForward m.formula)) (k : Option ℝ) :
    m.callValue cal date k = .error .type ∧ m.putValue cal date k = .error .type := by
  have : m.forward.optionForward date = .ok none := by
    rcases hf with h | h <;> simp [h, Fwd.optionForward, Fwd.truthy]
  constructor <;> simp [OptModel.callValue, OptModel.putValue, OptModel.details, this, hv, ht, OptDetails.fwd]

/-- C83: a collared rate flow raises KeyError with such a model, although the plain rate flow is defined with it. -/
theorem C83_collar_violated [LinearOrder D] {m : OptModel D} (hf : m.forward = .num 0) {p : ContingentRatePay D P} {c : ℝ}
    (hc : p.fixedRate = some c) {fix : D} (hfix : cal.minus p.fixingOffset p.start = .ok fix) :
    (PayOff.contingentRate p).eval cal (.model m) = .error .key ∧
    (PayOff.rate p.toRatePay).eval cal (.model m) =
      .ok ((c + 0) * (p.dayCount.getD cal.dayCount) p.start p.stop * p.amount) := by
  constructor
  · simp [PayOff.eval, ContingentRatePay.cashflow, RatePay.details, RatePay.forwardAt, ModelArg.curve, hf, ModelArg.truthy,
      Fwd.truthy, hc, pyKey]
  · exact C50_formula (.inr ⟨m, rfl, hf⟩) (.num 0 fix) hfix hc

/-- C83: every other number works: without volatility the values are the intrinsic ones. -/
theorem C83_partial {m : OptModel D} {x : ℝ} (hx : x ≠ 0) (hf : m.forward = .num x) (hv : m.vol = .none) {date : D} {t : ℝ}
    (ht : m.time cal date = .ok t) (k : ℝ) :
    m.callValue cal date (some k) = .ok (max (x - k) 0) ∧ m.putValue cal date (some k) = .ok (max (k - x) 0) := by
  have := details_num (cal := cal) hx hf (date := date) (v := none) (by simp [hv, Vol.eval]) ht k
  simp [OptModel.callValue, OptModel.putValue, this, OptDetails.fwd, OptDetails.flat]

example : (OptModel.mk (some (0 : ℝ)) (.num 0) (.num (1 / 5)) none false (normalFormula codeDist)).callValue floatCal 1 (some 90) =
    .error .type :=
  (C83_violated (.inl rfl) (v := some (1 / 5)) (by simp [Vol.eval]) rfl (.inr (.inr ⟨by simp [floatCal], .normal _⟩)) _).1

/-! ## C84: binary options -/

/-- The binary option models of the package. -/
inductive IsBinary : OptFormula → Prop
  | intrinsic : IsBinary binaryIntrinsicFormula
  | normal : IsBinary (binaryNormalFormula codeDist)
  | logNormal : IsBinary (binaryLogNormalFormula codeDist)
  | displaced (a : ℝ) : IsBinary (binaryDisplacedFormula codeDist a)
  | spread (f : OptFormula) (s : Option ℝ) : IsBinary (binaryFormula f s)

/-- C84: without volatility (or at expiry) every binary model returns the plain call value forward minus strike in place of
0 or 1. -/
theorem C84_flat_violated {b : OptFormula} (hb : IsBinary b) :
    (OptModel.mk (some (0 : ℝ)) (.num 100) .none none false b).callValue floatCal 1 (some 90) = .ok 10 := by
  have := (C83_partial (m := OptModel.mk (some (0 : ℝ)) (.num 100) .none none false b) (cal := floatCal) (x := 100) (by norm_num)
    rfl rfl (date := 1) rfl 90).1
  rw [this]; norm_num

/-- C84: the binary put is not one minus the binary call; it is strike minus forward plus the binary call. -/
theorem C84_put_violated :
    (OptModel.mk (some (0 : ℝ)) (.num 100) (.num (1 / 5)) none false binaryIntrinsicFormula).callValue floatCal 1 (some 90) = .ok 1 ∧
    (OptModel.mk (some (0 : ℝ)) (.num 100) (.num (1 / 5)) none false binaryIntrinsicFormula).putValue floatCal 1 (some 90) =
      .ok (-9) := by
  set m := OptModel.mk (some (0 : ℝ)) (.num 100) (.num (1 / 5)) none false binaryIntrinsicFormula with hm
  have hd := details_num (m := m) (cal := floatCal) (x := 100) (by norm_num) rfl (date := 1) (v := some (1 / 5)) (t := 1)
    (by simp [hm, Vol.eval]) (by simp [hm, OptModel.time, Vol.dayCount, Fwd.dayCount, floatCal]) 90
  have h1 : m.callValue floatCal 1 (some 90) = .ok 1 := by
    simp only [OptModel.callValue, hd, Py.ok_bind, OptDetails.fwd, OptDetails.flat]
    simp only [hm, binaryIntrinsicFormula]
    norm_num
  refine ⟨h1, ?_⟩
  rw [C53_value hd rfl, h1]
  norm_num

/-- C84: with positive volatility and time the intrinsic binary call is 0 or 1. -/
theorem C84_intrinsic_partial {m : OptModel D} (hb : m.formula = binaryIntrinsicFormula) {date : D} {strike : Option ℝ}
    {d : OptDetails D} {F : ℝ} (hd : m.details cal date strike = .ok d) (hF : d.forward = some F) (hfl : d.flat = false) :
    m.callValue cal date strike = .ok (if F ≤ d.strike then 0 else 1) := by
  simp [OptModel.callValue, hd, OptDetails.fwd, hF, hfl, hb, binaryIntrinsicFormula]

end

section
variable {D P : Type} [LinearOrder D] {cal : Cal D P}

/-! ## C51: collars -/

/-- A model that values options by their intrinsic value and reads the forward rate `F` at `fix`. -/
structure Intrinsic (cal : Cal D P) (m : OptModel D) (fix : D) (F : ℝ) : Prop where
  call : ∀ k, m.callValue cal fix (some k) = .ok (max (F - k) 0)
  put : ∀ k, m.putValue cal fix (some k) = .ok (max (k - F) 0)
  details : ∀ k, ∃ d, m.details cal fix k = .ok d
  quotes : Quotes m.forward fix F
  truthy : m.forward.truthy = true

/-- The intrinsic model, and every model without volatility or at expiry, on a rate curve, a function or a number but 0. -/
theorem intrinsic_of {m : OptModel D} {fix : D} {F t : ℝ} {v : Option ℝ} (hq : Quotes m.forward fix F)
    (hk : ∀ p f dc, m.forward ≠ .price p f dc) (h0 : m.forward ≠ .num 0) (hv : m.vol.eval fix = .ok v)
    (ht : m.time cal fix = .ok t) (hi : m.formula = intrinsicFormula ∨ v.getD 0 = 0 ∨ t = 0) : Intrinsic cal m fix F := by
  have hT : m.forward.truthy = true := by
    cases hf : m.forward with
    | num x => simp only [Fwd.truthy, ne_eq, decide_not, Bool.not_eq_true', decide_eq_false_iff_not]
               rintro rfl; exact h0 hf
    | none => rw [hf] at hq; cases hq
    | cash => rfl
    | fn => rfl
    | price => rfl
  have hof : m.forward.optionForward fix = .ok (some F) := by
    rw [Fwd.optionForward.eq_def, if_pos hT]
    cases hf : m.forward with
    | num x => rw [hf] at hq; cases hq; rfl
    | none => rw [hf] at hq; cases hq
    | cash r dc => rw [hf] at hq; cases hq with | cash h => simp [h]
    | fn f => rw [hf] at hq; cases hq with | fn h => simp [h]
    | price p f dc => exact absurd hf (hk p f dc)
  have hd : ∀ k, m.details cal fix k = .ok ⟨m.valuation, some fix, some F, (match k with | some k => k | none => F), v, t⟩ := by
    intro k; simp [OptModel.details, hof, hv, ht, hT]; cases k <;> rfl
  have hcall : ∀ k, m.callValue cal fix (some k) = .ok (max (F - k) 0) := by
    intro k
    by_cases h : v.getD 0 = 0 ∨ t = 0
    · simp [OptModel.callValue, hd, OptDetails.fwd, OptDetails.flat, h]
    · rw [not_or] at h
      rcases hi with hi | hi | hi
      · simp [OptModel.callValue, hd, OptDetails.fwd, OptDetails.flat, h, hi, intrinsicFormula]
      · exact absurd hi h.1
      · exact absurd hi h.2
  refine ⟨hcall, fun k => ?_, fun k => ⟨_, hd k⟩, hq, hT⟩
  rw [C53_value (hd (some k)) rfl, hcall, Py.map_ok, Except.ok.injEq]
  simp only
  rcases le_total k F with h | h
  · rw [max_eq_left (by linarith), max_eq_right (by linarith)]; ring
  · rw [max_eq_right (by linarith), max_eq_left (by linarith)]; ring

/-- What the code returns for a collared flow with intrinsic values. -/
theorem collar_eq {m : OptModel D} {p : ContingentRatePay D P} {fix : D} {F c : ℝ} (hm : Intrinsic cal m fix F)
    (hf : cal.minus p.fixingOffset p.start = .ok fix) (hc : p.fixedRate = some c) :
    (PayOff.contingentRate p).eval cal (.model m) =
      .ok ((c + F + (match p.floor with | some k => max (k - F) 0 | none => 0) -
        (match p.cap with | some l => max (F - l) 0 | none => 0)) * ((p.dayCount.getD cal.dayCount) p.start p.stop * p.amount)) := by
  obtain ⟨x, hx, hF, hx'⟩ := forwardAt_quotes (cal := cal) (p := p.toRatePay) (arg := .fwd m.forward) hm.quotes hf
  have hx2 := hx' (by simpa [ModelArg.truthy] using hm.truthy)
  subst hx2
  have hfl : ∀ s, optlet cal m (m.putValue cal) fix s p.floor =
      .ok ((match p.floor with | some k => max (k - F) 0 | none => 0) * s) := by
    intro s
    cases p.floor with
    | none => simp [optlet]
    | some k => obtain ⟨d, hd⟩ := hm.details (some k); simp [optlet, hd, hm.put]
  have hcp : ∀ s, optlet cal m (m.callValue cal) fix s p.cap =
      .ok ((match p.cap with | some l => max (F - l) 0 | none => 0) * s) := by
    intro s
    cases p.cap with
    | none => simp [optlet]
    | some k => obtain ⟨d, hd⟩ := hm.details (some k); simp [optlet, hd, hm.call]
  simp only [PayOff.eval, ContingentRatePay.cashflow, ModelArg.curve, RatePay.details, hx, Py.ok_bind, hc, pyKey, hfl, hcp,
    Option.getD_some, RatePay.tau, Except.ok.injEq]
  ring

/-- C51: with intrinsic option values and floor at most cap, the flow is the clamped rate plus the fixed rate. -/
theorem C51_clamp_partial {m : OptModel D} {p : ContingentRatePay D P} {fix : D} {F c : ℝ} (hm : Intrinsic cal m fix F)
    (hf : cal.minus p.fixingOffset p.start = .ok fix) (hc : p.fixedRate = some c)
    (hkl : ∀ k l, p.floor = some k → p.cap = some l → k ≤ l) :
    (PayOff.contingentRate p).eval cal (.model m) =
      .ok ((clampRate p.floor p.cap F + c) * (p.dayCount.getD cal.dayCount) p.start p.stop * p.amount) := by
  rw [collar_eq hm hf hc, Except.ok.injEq, mul_assoc]
  congr 1
  unfold clampRate
  cases hfl : p.floor with
  | none =>
    cases hcp : p.cap with
    | none => ring
    | some l =>
      simp only
      rcases le_total F l with h | h
      · rw [max_eq_right (by linarith), min_eq_left h]; ring
      · rw [max_eq_left (by linarith), min_eq_right h]; ring
  | some k =>
    cases hcp : p.cap with
    | none =>
      simp only
      rcases le_total F k with h | h
      · rw [max_eq_left (by linarith), max_eq_left h]; ring
      · rw [max_eq_right (by linarith), max_eq_right h]; ring
    | some l =>
      have hkl' := hkl k l hfl hcp
      simp only
      rcases le_total F k with h | h
      · rw [max_eq_left (by linarith), min_eq_left (by linarith), max_eq_left h, max_eq_right (by linarith)]; ring
      · rcases le_total F l with h' | h'
        · rw [max_eq_right (by linarith), max_eq_right (by linarith), min_eq_left h', max_eq_right h]; ring
        · rw [max_eq_right (by linarith), max_eq_left (by linarith), min_eq_right h', max_eq_right hkl']; ring

/-- C51: for a floor above the cap and a rate strictly between, the returned flow is never the documented one (if period and
amount are not 0). -/
theorem C51_violated {m : OptModel D} {p : ContingentRatePay D P} {fix : D} {F c k l : ℝ} (hm : Intrinsic cal m fix F)
    (hf : cal.minus p.fixingOffset p.start = .ok fix) (hc : p.fixedRate = some c) (hk : p.floor = some k) (hl : p.cap = some l)
    (h1 : l < F) (h2 : F < k) (hn : (p.dayCount.getD cal.dayCount) p.start p.stop * p.amount ≠ 0) :
    ∃ x, (PayOff.contingentRate p).eval cal (.model m) = .ok x ∧
      x ≠ (clampRate p.floor p.cap F + c) * (p.dayCount.getD cal.dayCount) p.start p.stop * p.amount := by
  refine ⟨_, collar_eq hm hf hc, fun e => ?_⟩
  rw [mul_assoc] at e
  have := mul_right_cancel₀ hn e
  rw [hk, hl] at this
  simp only [clampRate] at this
  rw [max_eq_left (by linarith), max_eq_left (by linarith), min_eq_right h1.le, max_eq_left (by linarith)] at this
  linarith

example : Intrinsic floatCal (OptModel.mk (some (0 : ℝ)) (.fn fun _ => .ok (1 / 50)) (.num (1 / 5)) none false intrinsicFormula) 1 (1 / 50) :=
  intrinsic_of (v := some (1 / 5)) (t := 1) (.fn rfl) (by simp) (by simp) (by simp [Vol.eval])
    (by simp [OptModel.time, Vol.dayCount, Fwd.dayCount, floatCal]) (.inl rfl)

/-! ## C52: option strategies -/

theorem optPay_details {m : OptModel D} {e : D} {k k' : Option ℝ} {d : OptDetails D} (h : m.details cal e k = .ok d) :
    ∃ d', m.details cal e k' = .ok d' := by
  simp only [OptModel.details, Py.bind_eq_ok] at h
  obtain ⟨f, hf, v, hv, t, ht, -⟩ := h
  simp [OptModel.details, hf, hv, ht]

theorem optPay_value {m : OptModel D} {o : OptPay D} {v : ℝ}
    (h : (if o.isPut then m.putValue cal o.expiry o.strike else m.callValue cal o.expiry o.strike) = .ok v) :
    o.cashflow cal (.model m) = .ok (o.amount * v) ∧ ∃ d, m.details cal o.expiry none = .ok d := by
  have hd : ∃ d, m.details cal o.expiry o.strike = .ok d := by
    split_ifs at h
    · simp only [OptModel.putValue] at h
      obtain ⟨d, hd, -⟩ := Py.bind_eq_ok.1 h; exact ⟨d, hd⟩
    · simp only [OptModel.callValue] at h
      obtain ⟨d, hd, -⟩ := Py.bind_eq_ok.1 h; exact ⟨d, hd⟩
  obtain ⟨d, hd⟩ := hd
  constructor
  · simp only [OptPay.cashflow]
    split_ifs at h with hp <;> simp [hp, h, hd]
  · exact optPay_details hd

theorem strategy_sum {m : OptModel D} {os : List (OptPay D)} {g : OptPay D → ℝ}
    (h : ∀ o ∈ os, (if o.isPut then m.putValue cal o.expiry o.strike else m.callValue cal o.expiry o.strike) = .ok (g o)) :
    strategyCashflow cal os (.model m) = .ok ((os.map fun o => o.amount * g o).sum) := by
  unfold strategyCashflow
  rw [pyMap_ok (g := fun o => o.amount * g o) fun o ho => (optPay_value (h o ho)).1]
  cases os with
  | nil => simp
  | cons o os =>
    obtain ⟨d, hd⟩ := (optPay_value (h o (by simp))).2
    simp [hd]

/-- C52: the value of a strategy is the sum of its puts and calls, each amount with its strike; surplus amounts or strikes
are dropped. -/
theorem C52_sum {m : OptModel D} {e : D} {callAmounts putAmounts : NumArg} {callStrikes putStrikes : List ℝ} {C Q : ℝ → ℝ}
    (hC : ∀ k ∈ callStrikes, m.callValue cal e (some k) = .ok (C k)) (hP : ∀ k ∈ putStrikes, m.putValue cal e (some k) = .ok (Q k)) :
    (PayOff.strategy (strategyOptions e callAmounts callStrikes putAmounts putStrikes) : PayOff D P).eval cal (.model m) =
      .ok ((((callAmounts.expand callStrikes.length).zip callStrikes).map fun x => x.1 * C x.2).sum +
        (((putAmounts.expand putStrikes.length).zip putStrikes).map fun x => x.1 * Q x.2).sum) := by
  simp only [PayOff.eval]
  rw [strategy_sum (g := fun o => if o.isPut then Q (o.strike.getD 0) else C (o.strike.getD 0))]
  · rw [strategyOptions, ((List.perm_insertionSort _ _).map _).sum_eq, List.map_append, List.sum_append, List.map_map,
      List.map_map, add_comm]
    rfl
  · intro o ho
    rw [strategyOptions, (List.perm_insertionSort _ _).mem_iff, List.mem_append] at ho
    rcases ho with ho | ho
    · obtain ⟨x, hx, rfl⟩ := List.mem_map.1 ho
      simp [hP _ (List.of_mem_zip hx).2]
    · obtain ⟨x, hx, rfl⟩ := List.mem_map.1 ho
      simp [hC _ (List.of_mem_zip hx).2]

/-- C52: the order in which the options are given does not matter. -/
theorem C52_order {m : OptModel D} {e : D} {ca ca' pa pa' cs cs' ps ps' : List ℝ} {C Q : ℝ → ℝ}
    (hC : ∀ k ∈ cs, m.callValue cal e (some k) = .ok (C k)) (hP : ∀ k ∈ ps, m.putValue cal e (some k) = .ok (Q k))
    (h1 : (ca.zip cs).Perm (ca'.zip cs')) (h2 : (pa.zip ps).Perm (pa'.zip ps')) (h3 : cs'.Perm cs) (h4 : ps'.Perm ps) :
    (PayOff.strategy (strategyOptions e (.list ca') cs' (.list pa') ps') : PayOff D P).eval cal (.model m) =
      (PayOff.strategy (strategyOptions e (.list ca) cs (.list pa) ps) : PayOff D P).eval cal (.model m) := by
  rw [C52_sum (fun k hk => hC k (h3.mem_iff.1 hk)) (fun k hk => hP k (h4.mem_iff.1 hk)), C52_sum hC hP]
  simp only [NumArg.expand, Except.ok.injEq]
  rw [(h1.map _).sum_eq, (h2.map _).sum_eq]

/-- C52: without model a strategy is worth 0. -/
theorem C52_no_model (os : List (OptPay D)) : (PayOff.strategy os : PayOff D P).eval cal (.fwd .none) = .ok 0 := by
  simp only [PayOff.eval, strategyCashflow]
  rw [pyMap_ok (g := fun _ => 0) fun o _ => by simp [OptPay.cashflow, Fwd.truthy]]
  simp

example : (PayOff.strategy (strategyOptions (1 : ℝ) (.list [1, -2, 1]) [100, 110, 120] (.scalar 1) []) : PayOff ℝ FloatPeriod).eval floatCal
    (.model (OptModel.mk (some 0) (.num 112) .none none false (logNormalFormula codeDist))) = .ok 8 := by
  have := fun k => C83_partial (m := OptModel.mk (some (0 : ℝ)) (.num 112) .none none false (logNormalFormula codeDist))
    (cal := floatCal) (x := 112) (by norm_num) rfl rfl (date := 1) rfl k
  rw [C52_sum (C := fun k => max (112 - k) 0) (Q := fun k => max (k - 112) 0) (fun k _ => (this k).1) (fun k _ => (this k).2)]
  simp [NumArg.expand]
  norm_num

end

/-! ### The hypotheses can be met: each theorem applied -/

theorem exDetails (K : Option ℝ) : (OptModel.mk (some 0) (.num 100) (.num (1 / 5)) none false (normalFormula codeDist)).details
    floatCal 1 K = .ok ⟨some 0, some 1, some 100, K.getD 100, some (1 / 5), 1⟩ := by
  cases K <;> simp [OptModel.details, Fwd.optionForward, Fwd.truthy, Vol.eval, OptModel.time, Vol.dayCount, Fwd.dayCount, floatCal]

example := C53_value (exDetails (some 90)) rfl
example := C53_strike (exDetails (some 90)) rfl
example := C53_atm (exDetails none) rfl
example := C84_flat_violated .intrinsic
example := C83_collar_violated (cal := floatCal) (m := OptModel.mk (some 0) (.num 0) (.num (1 / 5)) none false (normalFormula codeDist)) rfl
  (p := ⟨⟨0, 1, 100, none, none, some (1 / 100)⟩, some (3 / 100), none⟩) rfl (fix := 0) rfl
example := C84_intrinsic_partial (cal := floatCal) (m := OptModel.mk (some 0) (.num 100) (.num (1 / 5)) none false binaryIntrinsicFormula) rfl (date := 1) (strike := some 90)
  (d := ⟨some 0, some 1, some 100, 90, some (1 / 5), 1⟩) (F := 100)
  (by simp [OptModel.details, Fwd.optionForward, Fwd.truthy, Vol.eval, OptModel.time, Vol.dayCount, Fwd.dayCount, floatCal]) rfl (by simp [OptDetails.flat])
theorem exIntrinsic : Intrinsic floatCal (OptModel.mk (some (0 : ℝ)) (.fn fun _ => .ok (1 / 50)) (.num (1 / 5)) none false intrinsicFormula) 1 (1 / 50) :=
  intrinsic_of (v := some (1 / 5)) (t := 1) (.fn rfl) (by simp) (by simp) (by simp [Vol.eval])
    (by simp [OptModel.time, Vol.dayCount, Fwd.dayCount, floatCal]) (.inl rfl)
example := C51_clamp_partial exIntrinsic (p := ⟨⟨1, 2, 100, none, none, some (1 / 100)⟩, some (1 / 100), some (3 / 100)⟩) rfl rfl
  (by rintro k l hk hl; cases hk; cases hl; norm_num)
example := C51_violated exIntrinsic (p := ⟨⟨1, 2, 100, none, none, some (1 / 100)⟩, some (3 / 100), some (1 / 100)⟩) rfl rfl rfl rfl
  (by norm_num) (by norm_num) (by norm_num [floatCal])
example : (PayOff.strategy (strategyOptions (1 : ℝ) (.list [-2, 1]) [110, 100] (.list []) []) : PayOff ℝ FloatPeriod).eval floatCal
      (.model (OptModel.mk (some 0) (.num 112) .none none false (logNormalFormula codeDist))) =
    (PayOff.strategy (strategyOptions (1 : ℝ) (.list [1, -2]) [100, 110] (.list []) []) : PayOff ℝ FloatPeriod).eval floatCal
      (.model (OptModel.mk (some 0) (.num 112) .none none false (logNormalFormula codeDist))) := by
  have h := fun k => C83_partial (m := OptModel.mk (some (0 : ℝ)) (.num 112) .none none false (logNormalFormula codeDist))
    (cal := floatCal) (x := 112) (by norm_num) rfl rfl (date := 1) rfl k
  exact C52_order (C := fun k => max (112 - k) 0) (Q := fun k => max (k - 112) 0) (fun k _ => (h k).1) (fun k _ => (h k).2)
    (List.Perm.swap _ _ _) .nil (List.Perm.swap _ _ _) .nil

end Dcf
