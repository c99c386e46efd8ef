import Verif.Props.CashflowTable

/-! # The details of payoffs: C147 -/

set_option linter.unusedSectionVars false
set_option linter.unusedSimpArgs false
set_option linter.unusedVariables false

namespace Dcf

attribute [local simp] Cell.ofNum_eq Cell.ofDate_eq

section
variable {D P : Type} {cal : Cal D P}

/-- What the details of a model are for an option: its own terms win over nothing but the strike. -/
theorem get_entries (d : OptDetails D) (k : Col) : Dict.get d.entries.reverse k = Dict.get d.entries k := by
  obtain ⟨a, b, c, x, v, t⟩ := d
  cases b <;> cases c <;> cases v <;> cases k <;> simp [OptDetails.entries, Dict.get]

/-- C147: the details of an option are its terms and its value; without a model nothing else is there. -/
theorem C147_terms {o : OptPay D} {arg : ModelArg D} {t : Details D} (h : o.dict cal arg = .ok t) :
    (∃ x, PayOff.eval cal (.option o : PayOff D P) arg = .ok x ∧ t.get .cashflow = some (.num x)) ∧
    t.get .putCall = some (.text (if o.isPut then "put" else "call")) ∧
    t.get .longShort = some (.text (if 0 < o.amount then "long" else "short")) ∧
    t.get .notional = some (.num o.amount) ∧ t.get .expiryDate = some (.date o.expiry) ∧
    ((∃ f, arg = .fwd f) → t.get .cashflow = some (.num 0) ∧ t.get .strike = some (o.strike.elim .none .num) ∧
      ∀ k, k ∉ [.cashflow, .putCall, .longShort, .notional, .strike, .expiryDate] → t.get k = none) := by
  refine ⟨((PayOff.option o : PayOff D P).dict_ok cal (by simp) arg).2 t h, ?_⟩
  simp only [OptPay.dict, Py.bind_eq_ok] at h
  obtain ⟨x, hx, h⟩ := h
  cases arg with
  | fwd f =>
    obtain rfl := Except.ok.inj h
    have h0 : x = 0 := by
      simp only [OptPay.cashflow] at hx
      split_ifs at hx with hf
      exact (Except.ok.inj hx).symm
    refine ⟨by simp [Dict.get], by simp [Dict.get], by simp [Dict.get], by simp [Dict.get], fun _ => ⟨by simp [Dict.get, h0], by simp [Dict.get], ?_⟩⟩
    intro k hk
    rw [Dict.get_none]
    simpa using hk
  | model m =>
    simp only [Py.bind_eq_ok] at h
    obtain ⟨d, hd, h⟩ := h
    obtain rfl := Except.ok.inj h
    obtain ⟨a, b, c, y, v, s⟩ := d
    refine ⟨?_, ?_, ?_, ?_, fun ⟨f, hf⟩ => by cases hf⟩ <;> rw [Dict.get_update, get_entries] <;>
      cases b <;> cases c <;> cases v <;> simp [OptDetails.entries, Dict.get]

/-- C147: with a model the details also have what the model knows: valuation date, time to expiry and strike, which is the
forward if no strike was given; fixing date and forward if the model has a forward curve, volatility if it has one. -/
theorem C147_model {o : OptPay D} {m : OptModel D} {t : Details D} (h : o.dict cal (.model m) = .ok t) :
    ∃ time forward vol, m.time cal o.expiry = .ok time ∧ m.forward.optionForward o.expiry = .ok forward ∧ m.vol.eval o.expiry = .ok vol ∧
      t.get .timeToExpiry = some (.num time) ∧ t.get .valuationDate = some (m.valuation.elim .none .date) ∧
      t.get .strike = some (.num (o.strike.getD (forward.getD 0))) ∧
      t.get .forward = forward.map .num ∧ t.get .fixingDate = forward.map (fun _ => .date o.expiry) ∧ t.get .volatility = vol.map .num := by
  simp only [OptPay.dict, Py.bind_eq_ok] at h
  obtain ⟨x, hx, d, hd, h⟩ := h
  obtain rfl := Except.ok.inj h
  simp only [OptModel.details, Py.bind_eq_ok] at hd
  obtain ⟨forward, hf, vol, hv, time, ht, hd⟩ := hd
  obtain rfl := Except.ok.inj hd
  have hfx : (forward = none → True) ∧ (∀ f, forward = some f → m.forward.truthy = true) := by
    refine ⟨fun _ => trivial, fun f e => ?_⟩
    by_contra hn
    simp [Fwd.optionForward, hn, e] at hf
  refine ⟨time, forward, vol, ht, hf, hv, ?_⟩
  simp only [Dict.get_update, get_entries]
  cases hs : o.strike <;> cases forward with
  | none => cases vol <;> cases hm : m.forward.truthy <;> simp [OptDetails.entries, Dict.get]
  | some f =>
    have hm := hfx.2 f rfl
    cases vol <;> simp [OptDetails.entries, Dict.get, hm]

end

section
variable {D P : Type} {cal : Cal D P}

theorem get_options {l : List (OptPay D)} {arg : ModelArg D} {n : ℕ} {parts : List (List (Col × Cell D))}
    (h : pyMap (fun x : OptPay D × ℕ => do
        let d ← x.1.dict cal arg
        .ok (d.map fun e => (Col.option x.2 e.1, e.2))) (l.zipIdx n) = .ok parts) :
    (∀ i (hi : i < l.length) k, ∃ t, l[i].dict cal arg = .ok t ∧ Dict.get parts.flatten (.option (n + i) k) = t.get k) ∧
    (∀ i k, i < n ∨ n + l.length ≤ i → Dict.get parts.flatten (.option i k) = none) ∧
    ∀ k, (∀ i k', k ≠ .option i k') → Dict.get parts.flatten k = none := by
  induction l generalizing n parts with
  | nil =>
    simp only [List.zipIdx_nil, pyMap] at h
    obtain rfl := Except.ok.inj h
    simp [Dict.get]
  | cons o l ih =>
    simp only [List.zipIdx_cons, pyMap, Py.bind_eq_ok] at h
    obtain ⟨p, ⟨t, ht, hp⟩, ps, hps, h⟩ := h
    obtain rfl := Except.ok.inj hp
    obtain rfl := Except.ok.inj h
    obtain ⟨h1, h2, h3⟩ := ih hps
    have own : ∀ (d : Details D) k, Dict.get (d.map fun e => (Col.option n e.1, e.2)) (.option n k) = d.get k := by
      intro d k
      induction d with
      | nil => rfl
      | cons e d ih =>
        simp only [List.map_cons, Dict.get, Col.option.injEq, true_and]
        split_ifs
        · rfl
        · exact ih
    have other : ∀ (d : Details D) k, (∀ k', k ≠ .option n k') → Dict.get (d.map fun e => (Col.option n e.1, e.2)) k = none := by
      intro d k hk
      rw [Dict.get_none]
      simp only [List.map_map, List.mem_map, not_exists, not_and]
      exact fun e _ he => hk _ he.symm
    simp only [List.flatten_cons, Dict.get_append]
    refine ⟨fun i hi k => ?_, fun i k hi => ?_, fun k hk => ?_⟩
    · cases i with
      | zero =>
        refine ⟨t, ht, ?_⟩
        rw [Nat.add_zero, own, h2 n k (by omega)]
        simp
      | succ i =>
        obtain ⟨t', ht', e⟩ := h1 i (by simpa using hi) k
        refine ⟨t', ht', ?_⟩
        rw [other t _ (by intro k'; simp), Option.none_or, ← e]
        congr 2
        omega
    · simp only [List.length_cons] at hi
      rw [other t _ (by intro k'; simp; omega), h2 i k (by omega)]
      rfl
    · rw [other t k fun k' => hk n k', h3 k hk]
      rfl

/-- C147: the details of an option strategy are the details of all its options, numbered in the order of their strikes, and the
sum of their values. -/
theorem C147_strategy {os : List (OptPay D)} {arg : ModelArg D} {t : Details D} (h : strategyDict cal os arg = .ok t) :
    (∃ x, PayOff.eval cal (.strategy os : PayOff D P) arg = .ok x ∧ t.get .cashflow = some (.num x)) ∧
    (∃ xs, pyMap (fun o => PayOff.eval cal (.option o : PayOff D P) arg) os = .ok xs ∧ t.get .cashflow = some (.num xs.sum)) ∧
    ∀ i (hi : i < os.length), ∃ u, os[i].dict cal arg = .ok u ∧ ∀ k, t.get (.option i k) = u.get k := by
  have hc := ((PayOff.strategy os : PayOff D P).dict_ok cal (by simp) arg).2 t h
  refine ⟨hc, ?_, ?_⟩
  · obtain ⟨x, hx, hg⟩ := hc
    simp only [PayOff.eval, strategyCashflow, Py.bind_eq_ok] at hx
    obtain ⟨xs, hxs, hx⟩ := hx
    refine ⟨xs, hxs, ?_⟩
    have : x = pySum xs := by
      split at hx
      · simp only [Py.bind_eq_ok] at hx
        obtain ⟨-, -, hx⟩ := hx
        exact (Except.ok.inj hx).symm
      · exact (Except.ok.inj hx).symm
    rw [hg, this, pySum_eq]
  · simp only [strategyDict, Py.bind_eq_ok] at h
    obtain ⟨cf, -, parts, hp, h⟩ := h
    have hk := (get_options hp).1
    intro i hi
    obtain ⟨u, hu, -⟩ := hk i hi .cashflow
    refine ⟨u, hu, fun k => ?_⟩
    obtain ⟨u', hu', e⟩ := hk i hi k
    obtain rfl := Except.ok.inj (hu.symm.trans hu')
    rw [Nat.zero_add] at e
    split at h
    · simp only [Py.bind_eq_ok] at h
      obtain ⟨d, -, h⟩ := h
      obtain rfl := Except.ok.inj h
      rw [Dict.get_update, Dict.get_none.2, Option.none_or]
      · simpa [Dict.get] using e
      · obtain ⟨a, b, c, y, v, s⟩ := d
        cases b <;> cases c <;> cases v <;> simp [OptDetails.entries]
    · obtain rfl := Except.ok.inj h
      simpa [Dict.get] using e

/-- C147: with a model the details of a strategy also have what the model knows at the common expiry, but no strike. -/
theorem C147_strategy_model {o : OptPay D} {os : List (OptPay D)} {m : OptModel D} {t : Details D}
    (h : strategyDict cal (o :: os) (.model m) = .ok t) :
    t.get .strike = none ∧
    ∃ time forward vol, m.time cal o.expiry = .ok time ∧ m.forward.optionForward o.expiry = .ok forward ∧ m.vol.eval o.expiry = .ok vol ∧
      t.get .timeToExpiry = some (.num time) ∧ t.get .valuationDate = some (m.valuation.elim .none .date) ∧
      t.get .forward = forward.map .num ∧ t.get .fixingDate = forward.map (fun _ => .date o.expiry) ∧ t.get .volatility = vol.map .num := by
  simp only [strategyDict, Py.bind_eq_ok] at h
  obtain ⟨cf, -, parts, hp, d, hd, h⟩ := h
  obtain rfl := Except.ok.inj h
  have hk := (get_options hp).2.2
  simp only [OptModel.details, Py.bind_eq_ok] at hd
  obtain ⟨forward, hf, vol, hv, time, ht, hd⟩ := hd
  obtain rfl := Except.ok.inj hd
  have hfx : ∀ f, forward = some f → m.forward.truthy = true := by
    intro f e
    by_contra hn
    simp [Fwd.optionForward, hn, e] at hf
  have base : ∀ k, (∀ i k', k ≠ .option i k') → k ≠ .cashflow → Dict.get ((Col.cashflow, Cell.num cf) :: parts.flatten) k = none := by
    intro k h1 h2
    have := hk k h1
    simp only [Dict.get, h2.symm, if_false]
    exact this
  refine ⟨?_, time, forward, vol, ht, hf, hv, ?_⟩
  · rw [Dict.get_update, base _ (by simp) (by simp), Dict.get_none.2]
    · rfl
    · simp
  simp only [Dict.get_update]
  rw [base .timeToExpiry (by simp) (by simp), base .valuationDate (by simp) (by simp), base .forward (by simp) (by simp),
    base .fixingDate (by simp) (by simp), base .volatility (by simp) (by simp)]
  cases forward with
  | none => cases vol <;> cases hm : m.forward.truthy <;> simp [OptDetails.entries, Dict.get]
  | some f =>
    have hm := hfx f rfl
    cases vol <;> simp [OptDetails.entries, Dict.get, hm]

/-- C147 (what goes wrong): the expiry date is a column of the table of a strategy, but no detail of a strategy has that name. -/
theorem C147_expiry_violated {os : List (OptPay D)} {arg : ModelArg D} {t : Details D} (h : strategyDict cal os arg = .ok t) :
    Col.expiryDate ∈ ListClass.strategy.columns ∧ t.get .expiryDate = none := by
  refine ⟨by decide, ?_⟩
  simp only [strategyDict, Py.bind_eq_ok] at h
  obtain ⟨cf, -, parts, hp, h⟩ := h
  have hk := (get_options hp).2.2 .expiryDate (by simp)
  have base : Dict.get ((Col.cashflow, Cell.num cf) :: parts.flatten) Col.expiryDate = none := by
    simp only [Dict.get]
    exact hk
  split at h
  · simp only [Py.bind_eq_ok] at h
    obtain ⟨d, -, h⟩ := h
    obtain rfl := Except.ok.inj h
    rw [Dict.get_update, base, Dict.get_none.2]
    · rfl
    · obtain ⟨a, b, c, y, v, s⟩ := d
      cases b <;> cases c <;> cases v <;> simp [OptDetails.entries]
  · obtain rfl := Except.ok.inj h
    exact base

end

section
variable {D P : Type} {cal : Cal D P}

/-- What is shown for a floorlet or caplet. -/
def Cell.val {D : Type} : Option (Cell D) → ℝ
  | some (.num x) => x
  | _ => 0

theorem get_optlet {m : OptModel D} {value : D → Option ℝ → Py ℝ} {fixing : D} {scale : ℝ} {strike : Option ℝ} {k ks kv : Col}
    {l : List (Col × Cell D)} (h : optletEntries cal m value fixing scale strike k ks kv = .ok l) :
    (strike = none → l = []) ∧ ∀ x, strike = some x → ∃ v d, value fixing (some x) = .ok v ∧ m.details cal fixing (some x) = .ok d ∧
      l = [(k, .num (v * scale)), (ks, .num x), (kv, Cell.ofNum d.volatility), (.timeToExpiry, .num d.time),
        (.valuationDate, Cell.ofDate d.valuation)] := by
  cases strike with
  | none => exact ⟨fun _ => (Except.ok.inj h).symm, fun x e => by cases e⟩
  | some y =>
    refine ⟨fun e => (by cases e), fun x e => ?_⟩
    obtain rfl := Option.some.inj e
    simp only [optletEntries, Py.bind_eq_ok] at h
    obtain ⟨d, hd, v, hv, h⟩ := h
    exact ⟨v, d, hv, hd, (Except.ok.inj h).symm⟩

/-- C147: the details of a collared rate cashflow add up: its value is that of the rate cashflow plus the floorlet less the caplet
it shows, with their strikes; a floorlet or caplet is shown if and only if it was agreed. -/
theorem C147_collar {p : ContingentRatePay D P} {m : OptModel D} {t : Details D} (h : p.dict cal (.model m) = .ok t) :
    ∃ x r, PayOff.eval cal (.contingentRate p) (.model m) = .ok x ∧ PayOff.eval cal (.rate p.toRatePay) (.fwd m.forward) = .ok r ∧
      t.get .cashflow = some (.num x) ∧ x = r + Cell.val (t.get .floorlet) - Cell.val (t.get .caplet) ∧
      t.get .notional = some (.num p.amount) ∧ t.get .startDate = some (.date p.start) ∧ t.get .endDate = some (.date p.stop) ∧
      t.get .floorletStrike = p.floor.map .num ∧ t.get .capletStrike = p.cap.map .num ∧
      ((t.get .floorlet).isSome ↔ p.floor.isSome) ∧ ((t.get .caplet).isSome ↔ p.cap.isSome) ∧
      (p.floor.isSome ∨ p.cap.isSome → t.get .valuationDate = some (m.valuation.elim .none .date)) := by
  obtain ⟨x, hx, hcf⟩ := ((PayOff.contingentRate p : PayOff D P).dict_ok cal (by simp) (.model m)).2 t h
  have hx' := hx
  simp only [PayOff.eval, ContingentRatePay.cashflow, Py.bind_eq_ok] at hx'
  obtain ⟨r, hr, fix', hfix', fl, hfl, ca, hca, hsum⟩ := hx'
  have hr' : p.toRatePay.details cal (.fwd m.forward) = .ok r := hr
  have hsum := Except.ok.inj hsum
  refine ⟨x, r.cashflow, hx, by simp [PayOff.eval, hr'], hcf, ?_⟩
  simp only [ContingentRatePay.dict, Py.bind_eq_ok] at h
  obtain ⟨base, hb, r', hr'', fix, hfix, lf, hlf, lc, hlc, cf, hcf', h⟩ := h
  obtain rfl := Except.ok.inj (hr.symm.trans hr'')
  obtain rfl := Except.ok.inj (hfix.symm.trans hfix')
  obtain rfl := Except.ok.inj h
  have hbase : base.get .floorlet = none ∧ base.get .caplet = none ∧ base.get .floorletStrike = none ∧ base.get .capletStrike = none ∧
      base.get .notional = some (.num p.amount) ∧ base.get .startDate = some (.date p.start) ∧ base.get .endDate = some (.date p.stop) := by
    have hd := hr'
    simp only [RatePay.details, Py.bind_eq_ok] at hd
    obtain ⟨w, -, hd⟩ := hd
    have hrr : r.notional = p.amount ∧ r.start = p.start ∧ r.stop = p.stop := by
      split at hd
      · obtain rfl := Except.ok.inj hd; exact ⟨rfl, rfl, rfl⟩
      · cases hd
    simp only [RatePay.dict, Py.bind_eq_ok] at hb
    obtain ⟨r₂, hr₂, hb⟩ := hb
    obtain rfl := Except.ok.inj (hr.symm.trans hr₂)
    obtain rfl := Except.ok.inj hb
    obtain ⟨e1, e2, e3⟩ := hrr
    split <;> simp [Dict.get, e1, e2, e3]
  obtain ⟨b1, b2, b3, b4, b5, b6, b7⟩ := hbase
  have hval : ∀ x d, m.details cal fix x = .ok d → d.valuation = m.valuation := by
    intro x d hd
    simp only [OptModel.details, Py.bind_eq_ok] at hd
    obtain ⟨_, _, _, _, _, _, hd⟩ := hd
    rw [← Except.ok.inj hd]
  simp only [Dict.get_update, b1, b2, b3, b4, b5, b6, b7]
  cases hF : p.floor with
  | none =>
    rw [hF] at hfl
    obtain rfl := Except.ok.inj hfl
    obtain rfl := (get_optlet hlf).1 hF
    cases hC : p.cap with
    | none =>
      rw [hC] at hca
      obtain rfl := Except.ok.inj hca
      obtain rfl := (get_optlet hlc).1 hC
      simp [Dict.get, Cell.val, ← hsum]
    | some K =>
      obtain ⟨v, d, hv, hd, rfl⟩ := (get_optlet hlc).2 K hC
      rw [hC] at hca
      simp only [optlet, hd, hv, Py.ok_bind] at hca
      obtain rfl := Except.ok.inj hca
      simp [Dict.get, Cell.val, ← hsum, hval _ _ hd]
  | some K =>
    obtain ⟨v, d, hv, hd, rfl⟩ := (get_optlet hlf).2 K hF
    rw [hF] at hfl
    simp only [optlet, hd, hv, Py.ok_bind] at hfl
    obtain rfl := Except.ok.inj hfl
    cases hC : p.cap with
    | none =>
      rw [hC] at hca
      obtain rfl := Except.ok.inj hca
      obtain rfl := (get_optlet hlc).1 hC
      simp [Dict.get, Cell.val, ← hsum, hval _ _ hd]
    | some K' =>
      obtain ⟨v', d', hv', hd', rfl⟩ := (get_optlet hlc).2 K' hC
      rw [hC] at hca
      simp only [optlet, hd', hv', Py.ok_bind] at hca
      obtain rfl := Except.ok.inj hca
      simp [Dict.get, Cell.val, ← hsum, hval _ _ hd']

/-- C147 (what goes wrong): the model valuation date is a column of the table of collared rate cashflows, but no detail has
that name. -/
theorem C147_valuation_violated {p : ContingentRatePay D P} {arg : ModelArg D} {t : Details D} (h : p.dict cal arg = .ok t) :
    Col.modelValuationDate ∈ ListClass.contingentRate.columns ∧ t.get .modelValuationDate = none := by
  refine ⟨by decide, ?_⟩
  simp only [ContingentRatePay.dict, Py.bind_eq_ok] at h
  obtain ⟨base, hb, r, -, h⟩ := h
  have hbase : base.get .modelValuationDate = none := by
    simp only [RatePay.dict, Py.bind_eq_ok] at hb
    obtain ⟨r₂, -, hb⟩ := hb
    obtain rfl := Except.ok.inj hb
    split <;> simp [Dict.get]
  cases arg with
  | fwd f =>
    obtain rfl := Except.ok.inj h
    exact hbase
  | model m =>
    simp only [Py.bind_eq_ok] at h
    obtain ⟨fix, -, lf, hlf, lc, hlc, cf, -, h⟩ := h
    obtain rfl := Except.ok.inj h
    rw [Dict.get_update, hbase]
    cases hF : p.floor with
    | none =>
      obtain rfl := (get_optlet hlf).1 hF
      cases hC : p.cap with
      | none => obtain rfl := (get_optlet hlc).1 hC; simp [Dict.get]
      | some K => obtain ⟨v, d, hv, hd, rfl⟩ := (get_optlet hlc).2 K hC; simp [Dict.get]
    | some K =>
      obtain ⟨v, d, hv, hd, rfl⟩ := (get_optlet hlf).2 K hF
      cases hC : p.cap with
      | none => obtain rfl := (get_optlet hlc).1 hC; simp [Dict.get]
      | some K => obtain ⟨v, d, hv, hd, rfl⟩ := (get_optlet hlc).2 K hC; simp [Dict.get]

/-- C147: the details of a rate cashflow: the value is the sum of the rates shown times year fraction and notional. -/
theorem C147_rate {p : RatePay D P} {arg : ModelArg D} {t : Details D} (h : p.dict cal arg = .ok t) :
    ∃ x fixed, PayOff.eval cal (.rate p) arg = .ok x ∧ t.get .cashflow = some (.num x) ∧ p.fixedRate = some fixed ∧
      t.get .fixedRate = some (.num fixed) ∧ t.get .notional = some (.num p.amount) ∧ t.get .startDate = some (.date p.start) ∧
      t.get .endDate = some (.date p.stop) ∧ t.get .payRec = some (.text (if 0 < p.amount then "pay" else "rec")) ∧
      (x = (fixed + Cell.val (t.get .forwardRate)) * Cell.val (t.get .yearFraction) * p.amount) ∧
      ((t.get .forwardRate).isSome ↔ arg.truthy) := by
  obtain ⟨x, hx, hcf⟩ := ((PayOff.rate p : PayOff D P).dict_ok cal (by simp) arg).2 t h
  simp only [RatePay.dict, Py.bind_eq_ok] at h
  obtain ⟨r, hr, h⟩ := h
  obtain rfl := Except.ok.inj h
  have hxr : x = r.cashflow := by
    simp only [PayOff.eval, hr] at hx
    exact (Except.ok.inj hx).symm
  simp only [RatePay.details, Py.bind_eq_ok] at hr
  obtain ⟨w, hw, hr⟩ := hr
  have hw' : (∃ f d, w = (some f, some d) ∧ arg.truthy = true) ∨ (w = (none, none) ∧ arg.truthy = false) := by
    simp only [RatePay.forwardAt] at hw
    split_ifs at hw with ha
    · simp only [Py.bind_eq_ok] at hw
      obtain ⟨d, -, f, -, hw⟩ := hw
      exact Or.inl ⟨f, d, (Except.ok.inj hw).symm, ha⟩
    · exact Or.inr ⟨(Except.ok.inj hw).symm, by simpa using ha⟩
  cases hf : p.fixedRate with
  | none => rw [hf] at hr; cases hr
  | some fixed =>
    rw [hf] at hr
    obtain rfl := Except.ok.inj hr
    rw [hf] at hcf
    refine ⟨x, fixed, hx, hcf, rfl, ?_⟩
    rcases hw' with ⟨f, d, rfl, ha⟩ | ⟨rfl, ha⟩ <;> simp [Dict.get, Cell.ofNum, Cell.val, ha, hxr]

end

/-- C147 is not vacuous: options, strategies, rate cashflows and collared rate cashflows have details, without and with a model. -/
example (m : OptModel ℝ) (hm : m = ⟨some 0, .num 100, .none, none, false, normalFormula codeDist⟩) :
    (∃ t, (⟨1, 2, some 100, true⟩ : OptPay ℝ).dict floatCal (.fwd .none) = .ok t) ∧
    (∃ t, (⟨1, 2, none, false⟩ : OptPay ℝ).dict floatCal (.model m) = .ok t) ∧
    (∃ t, strategyDict floatCal [⟨1, 2, some 100, true⟩, ⟨1, -1, some 110, false⟩] (.fwd (.none : Fwd ℝ)) = .ok t) ∧
    (∃ t, strategyDict floatCal [⟨1, 2, some 100, true⟩, ⟨1, -1, some 110, false⟩] (.model m) = .ok t) ∧
    (∃ t, (⟨1, 2, 3, none, none, some (1 / 100)⟩ : RatePay ℝ FloatPeriod).dict floatCal (.fwd (.num 2)) = .ok t) ∧
    ∃ t, (⟨⟨1, 2, 3, none, none, some (1 / 100)⟩, some 90, some 110⟩ : ContingentRatePay ℝ FloatPeriod).dict floatCal (.model m) = .ok t := by
  have hd : ∀ x k, m.details floatCal x k = .ok ⟨some 0, some x, some 100, k.getD 100, none, x⟩ := by
    intro x k
    subst hm
    cases k <;> simp [OptModel.details, Fwd.optionForward, Fwd.truthy, Vol.eval, OptModel.time, Vol.dayCount, Fwd.dayCount, floatCal]
  have hc : ∀ x k, ∃ v, m.callValue floatCal x k = .ok v := fun x k =>
    ⟨_, by simp only [OptModel.callValue, hd, Py.ok_bind, OptDetails.fwd, OptDetails.flat]; simp; rfl⟩
  have hp : ∀ x k, ∃ v, m.putValue floatCal x k = .ok v := fun x k => by
    obtain ⟨v, hv⟩ := hc x k
    exact ⟨_, by simp only [OptModel.putValue, hd, hv, Py.ok_bind, OptDetails.fwd, OptDetails.flat]; simp; rfl⟩
  choose vc hc using hc
  choose vp hp using hp
  have ho : ∀ o : OptPay ℝ, ∃ x, o.cashflow floatCal (.model m) = .ok x := by
    intro o
    cases hb : o.isPut <;> exact ⟨_, by simp only [OptPay.cashflow, hb, hc, hp, hd, Py.ok_bind, if_true, Bool.false_eq_true, if_false]; rfl⟩
  have hf : m.forward = .num 100 := by rw [hm]
  refine ⟨?_, ?_, ?_, ?_, ?_, ?_⟩
  · exact ⟨_, by simp only [OptPay.dict, OptPay.cashflow, Fwd.truthy]; rfl⟩
  · obtain ⟨x, hx⟩ := ho ⟨1, 2, none, false⟩
    exact ((OptPay.dict_ok floatCal _ (.model m)).2 x hx).imp fun _ h => h.1
  · exact ⟨_, by simp only [strategyDict, strategyCashflow, OptPay.dict, OptPay.cashflow, Fwd.truthy]; rfl⟩
  · have := ((PayOff.strategy [⟨1, 2, some 100, true⟩, ⟨1, -1, some 110, false⟩] : PayOff ℝ FloatPeriod).dict_ok floatCal (by simp) (.model m)).1.2
    refine this ?_
    obtain ⟨x, hx⟩ := ho ⟨1, 2, some 100, true⟩
    obtain ⟨y, hy⟩ := ho ⟨1, -1, some 110, false⟩
    exact ⟨_, by simp only [PayOff.eval, strategyCashflow, pyMap, hx, hy, hd, Py.ok_bind]; rfl⟩
  · exact ⟨_, by simp only [RatePay.dict, RatePay.details, RatePay.forwardAt]; simp [ModelArg.truthy, Fwd.truthy, Cal.minus, Fwd.rate, ModelArg.curve]; rfl⟩
  · refine ((PayOff.contingentRate _ : PayOff ℝ FloatPeriod).dict_ok floatCal (by simp) (.model m)).1.2 ?_
    exact ⟨_, by
      simp only [PayOff.eval, ContingentRatePay.cashflow, RatePay.details, RatePay.forwardAt, ModelArg.curve, hf]
      simp [ModelArg.truthy, Fwd.truthy, Cal.minus, Fwd.rate, ModelArg.curve, pyKey, optlet, hd, hp, hc]
      rfl⟩

end Dcf
