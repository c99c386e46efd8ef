import Verif.Model.Products
import Verif.Props.Legs
import Verif.Props.Payoff

/-! # Product builders and list arithmetic: C65-C67, C88, C104, C105 -/

set_option linter.unusedSectionVars false
set_option linter.unusedSimpArgs false
set_option linter.unusedVariables false

namespace Dcf

open Spec

section
variable {D P : Type} [LinearOrder D] {cal : Cal D P}

/-! ## C88: arithmetic of cashflow lists -/

mutual
theorem CF.arith_state (op : ListOp) (y : ℝ) : ∀ c : CF D P, (c.arith op y).2 = c
  | .flat l => by rw [CF.arith]; rfl
  | .legs ls d o => by rw [CF.arith, CF.arithLegs_state]
theorem CF.arithLegs_state (op : ListOp) (y : ℝ) : ∀ ls : List (CF D P), (CF.arithLegs op y ls).2 = ls
  | [] => by rw [CF.arithLegs]
  | l :: ls => by
    have h := CF.arith_state op y l
    rw [CF.arithLegs]
    rcases hc : CF.arith op y l with ⟨_ | r, l'⟩ <;> rw [hc] at h <;> simp only at h ⊢
    · rw [h]
    · rw [h, CF.arithLegs_state op y ls]
end

/-- C88 (refuted): no arithmetic operation on a cashflow list returns a cashflow list, and none changes the list. -/
theorem C88_violated (op : ListOp) (y : ℝ) (c : CF D P) : (∀ r, (c.arith op y).1 ≠ .ok (some r)) ∧ (c.arith op y).2 = c := by
  refine ⟨fun r => ?_, c.arith_state op y⟩
  cases c with
  | flat l => rw [CF.arith, CFList.arith]; cases pyMap (fun p : D × PayOff D P => p.2.arith op y) l.flows <;> simp
  | legs ls d o => rw [CF.arith]; cases (CF.arithLegs op y ls).1 <;> simp

/-- C88: lists of numbers return `None`, except that dividing them by zero raises. -/
theorem C88_numbers (op : ListOp) (y : ℝ) {l : CFList D P} (h : ∀ p ∈ l.flows, ∃ x, p.2 = .num x)
    (h0 : op = .div → y ≠ 0) : (CF.flat l).arith op y = (.ok none, .flat l) := by
  have : pyMap (fun p : D × PayOff D P => p.2.arith op y) l.flows = .ok (l.flows.map fun p => match p.2.arith op y with
      | .ok x => x
      | .error _ => 0) := by
    apply pyMap_ok
    intro p hp
    obtain ⟨x, hx⟩ := h p hp
    rw [hx]
    cases op <;> simp_all [PayOff.arith, ListOp.onFloat, pyDiv_ok]
  rw [CF.arith, CFList.arith, this]
  rfl

/-- C88: dividing a list of numbers by zero raises `ZeroDivisionError`, unless it is empty. -/
theorem C88_zero {l : CFList D P} (h : ∀ p ∈ l.flows, ∃ x, p.2 = .num x) :
    (CF.flat l).arith .div 0 = (if l.flows = [] then .ok none else .error .zeroDivision, .flat l) := by
  rw [CF.arith, CFList.arith]
  cases hl : l.flows with
  | nil => simp [pyMap]
  | cons q fl =>
    obtain ⟨x, hx⟩ := h q (by simp [hl])
    simp [pyMap_cons, hx, PayOff.arith, ListOp.onFloat, pyDiv]

/-- C88 (refuted): lists with a payoff object (all rate, fixed and contingent lists) raise `AttributeError`. -/
theorem C88_payoffs_violated (op : ListOp) (y : ℝ) {l : CFList D P} {p : D × PayOff D P} (hp : p ∈ l.flows)
    (hx : ∀ x, p.2 ≠ .num x) (h0 : op = .div → y ≠ 0) : ((CF.flat l).arith op y).1 = .error .attribute := by
  have : pyMap (fun p : D × PayOff D P => p.2.arith op y) l.flows = .error .attribute := by
    generalize l.flows = fl at hp
    induction fl with
    | nil => simp at hp
    | cons q fl ih =>
      rw [pyMap_cons]
      by_cases hq : ∃ x, q.2 = .num x
      · obtain ⟨x, hqx⟩ := hq
        have : ∃ z, q.2.arith op y = .ok z := by
          rw [hqx]
          cases op <;> simp_all [PayOff.arith, ListOp.onFloat, pyDiv_ok]
        obtain ⟨z, hz⟩ := this
        rw [hz, Py.ok_bind, ih ?_]
        · rfl
        · rcases List.mem_cons.1 hp with rfl | hp
          · exact absurd hqx (hx x)
          · exact hp
      · have : q.2.arith op y = .error .attribute := by
          cases hq2 : q.2 <;> simp_all [PayOff.arith]
        rw [this]
        rfl
  rw [CF.arith, CFList.arith, this]
  rfl

/-- C88: legs return `None` if all of them do, otherwise they raise what the first one that raises does. -/
theorem C88_legs (op : ListOp) (y : ℝ) (ls : List (CF D P)) (d : List D) (o : Option D) :
    ((∀ l ∈ ls, (l.arith op y).1 = .ok none) → ((CF.legs ls d o).arith op y).1 = .ok none) ∧
      ∀ l₁ l l₂ e, ls = l₁ ++ l :: l₂ → (∀ l ∈ l₁, (l.arith op y).1 = .ok none) → (l.arith op y).1 = .error e →
        ((CF.legs ls d o).arith op y).1 = .error e := by
  have cons : ∀ (l : CF D P) ls, (l.arith op y).1 = .ok none → (CF.arithLegs op y (l :: ls)).1 = (CF.arithLegs op y ls).1 := by
    intro l ls h
    rw [CF.arithLegs]
    rcases hc : CF.arith op y l with ⟨_ | r, l'⟩ <;> rw [hc] at h <;> simp at h ⊢
  constructor
  · intro h
    have : (CF.arithLegs op y ls).1 = .ok () := by
      induction ls with
      | nil => rw [CF.arithLegs]
      | cons l ls ih => rw [cons l ls (h l (by simp)), ih fun l hl => h l (by simp [hl])]
    rw [CF.arith, this]; rfl
  · rintro l₁ l l₂ e rfl h he
    have : (CF.arithLegs op y (l₁ ++ l :: l₂)).1 = .error e := by
      induction l₁ with
      | nil =>
        rw [List.nil_append, CF.arithLegs]
        rcases hc : CF.arith op y l with ⟨_ | r, l'⟩ <;> rw [hc] at he <;> simp at he ⊢
        exact he
      | cons a l₁ ih => rw [List.cons_append, cons a _ (h a (by simp)), ih fun l hl => h l (by simp [hl])]
    rw [CF.arith, this]; rfl

/-- C88: multiplying a list of numbers by two. -/
example : ∃ l : CFList ℝ FloatPeriod, CFList.new [1, 2] (.list [5, 7]) none = .ok l ∧ (CF.flat l).arith .mul 2 = (.ok none, .flat l) := by
  refine ⟨_, CFList.new_list none rfl, C88_numbers _ _ (fun p hp => ?_) (by simp)⟩
  simp [Dict.ofPairs, Dict.set] at hp
  rcases hp with rfl | rfl <;> exact ⟨_, rfl⟩

example : ∃ l : CFList ℝ FloatPeriod, CFList.newFixed [1, 2] (.list [5, 7]) none = .ok l ∧
    ((CF.flat l).arith .mul 2).1 = .error .attribute := by
  refine ⟨_, by simp [CFList.newFixed, CFList.ofPayoffs, NumArg.expand]; rfl, ?_⟩
  refine C88_payoffs_violated (p := (1, .fixed 5)) _ _ ?_ (by simp) (by simp)
  simp [Dict.ofPairs, Dict.set]

example : ∃ l : CFList ℝ FloatPeriod, CFList.new [1, 2] (.list [5, 7]) none = .ok l ∧ ((CF.flat l).arith .div 0).1 = .error .zeroDivision := by
  refine ⟨_, CFList.new_list none rfl, ?_⟩
  rw [C88_zero fun p hp => ?_]
  · simp [Dict.ofPairs, Dict.set]
  · simp [Dict.ofPairs, Dict.set] at hp
    rcases hp with rfl | rfl <;> exact ⟨_, rfl⟩

example : ∃ l m : CFList ℝ FloatPeriod, CFList.new [1, 2] (.list [5, 7]) none = .ok l ∧ CFList.newFixed [1, 2] (.list [5, 7]) none = .ok m ∧
    ((CF.legs [.flat l, .flat m] [1, 2] none).arith .mul 2).1 = .error .attribute := by
  refine ⟨_, _, CFList.new_list none rfl, by simp [CFList.newFixed, CFList.ofPayoffs, NumArg.expand]; rfl, ?_⟩
  refine (C88_legs _ _ _ _ _).2 [_] _ [] _ rfl (fun l hl => ?_) (C88_payoffs_violated (p := (1, .fixed 5)) _ _ ?_ (by simp) (by simp))
  · obtain rfl := List.mem_singleton.1 hl
    rw [C88_numbers _ _ (fun p hp => ?_) (by simp)]
    simp [Dict.ofPairs, Dict.set] at hp
    rcases hp with rfl | rfl <;> exact ⟨_, rfl⟩
  · simp [Dict.ofPairs, Dict.set]

/-! ## C65: schedules of other dates than business dates -/

theorem pyWhile_no_end {σ : Type} {cond : σ → Py Bool} {body : σ → Py σ} {s : σ} (I : σ → Prop) (h0 : I s)
    (hc : ∀ s, I s → cond s = .ok true) (hb : ∀ s, I s → ∀ s', body s = .ok s' → I s') :
    ∀ r, pyWhile cond body s ≠ .ok r := by
  intro r hr
  unfold pyWhile at hr
  split_ifs at hr with hex
  have : ∀ (n : ℕ) (s : σ), I s → ∀ q, runWhile cond body n s = some q → ∀ r, q ≠ .ok r := by
    intro n
    induction n with
    | zero => intro s _ q hq; simp [runWhile] at hq
    | succ n ih =>
      intro s hs q hq
      simp only [runWhile, hc s hs] at hq
      cases hbs : body s with
      | error e => rw [hbs] at hq; cases hq; intro r h; cases h
      | ok s' => rw [hbs] at hq; exact ih s' (hb s hs s' hbs) q hq
  exact this _ s h0 _ hex.choose_spec.choose_spec r hr

/-- C65 (refuted): for dates other than business dates the schedule is never returned. -/
theorem C65_violated (times : P → ℕ → P) (start stop : D) (period : P) (l : List D) :
    plainPaymentDates cal times start stop period ≠ .ok l := by
  intro h
  rw [plainPaymentDates] at h
  obtain ⟨s, hs, h⟩ := Py.bind_eq_ok.1 h
  obtain ⟨u, hu, -⟩ := Py.bind_eq_ok.1 h
  cases hc : scheduleCond cal start period ([stop], 1) with
  | error e => rw [pyWhile_step, hc] at hs; cases hs
  | ok b =>
    cases b with
    | false =>
      rw [pyWhile_step, hc] at hs
      obtain rfl := Except.ok.inj hs
      simp [pyMap_cons, hasattrAdjust] at hu
    | true =>
      refine pyWhile_no_end (fun s => s.1.head? = some stop) rfl (fun s hs' => ?_) (fun s hs' s' hb => ?_) s hs
      · rw [← hc]
        obtain ⟨x, xs, hx⟩ : ∃ x xs, s.1 = x :: xs := by
          cases h1 : s.1 with
          | nil => rw [h1] at hs'; cases hs'
          | cons x xs => exact ⟨x, xs, rfl⟩
        rw [hx] at hs'
        obtain rfl : x = stop := by simpa using hs'
        simp [scheduleCond, hx, pyIndex]
      · rw [scheduleBody] at hb
        obtain ⟨d, -, hb⟩ := Py.bind_eq_ok.1 hb
        obtain rfl := Except.ok.inj hb
        simp only [List.head?_append, hs']
        rfl

end

/-- C65 (refuted): with numbers, if one period fits the loop never ends. -/
theorem C65_numeric_violated {start stop period : ℝ} (h : start + period ≤ stop) :
    plainPaymentDates floatCal FloatPeriod.times start stop (.num period) = .error .diverges := by
  rw [plainPaymentDates, pyWhile_diverges (fun s => s.1.head? = some stop) rfl (fun s hs => ?_) (fun s hs => ?_)]
  · rfl
  · obtain ⟨x, xs, hx⟩ : ∃ x xs, s.1 = x :: xs := by
      cases h1 : s.1 with
      | nil => rw [h1] at hs; cases hs
      | cons x xs => exact ⟨x, xs, rfl⟩
    rw [hx] at hs
    obtain rfl : x = stop := by simpa using hs
    simp [scheduleCond, hx, pyIndex, floatCal, h]
  · refine ⟨(s.1 ++ [stop - period * s.2], s.2 + 1), rfl, ?_⟩
    simp only [List.head?_append, hs]
    rfl

/-- C65 (refuted): otherwise `TypeError`. -/
theorem C65_short_violated {start stop period : ℝ} (h : stop < start + period) :
    plainPaymentDates floatCal FloatPeriod.times start stop (.num period) = .error .type := by
  rw [plainPaymentDates, pyWhile_step]
  have : scheduleCond floatCal start (.num period) ([stop], 1) = .ok false := by
    simp [scheduleCond, floatCal, pyIndex, h]
  rw [this]
  rfl

/-- C65 (refuted): the default bond is never built. -/
theorem C65_bond_violated (back : ℝ → ℝ → Py ℝ) (notional : NumArg) (dc : ProductDayCount ℝ) (c : ℝ) (f : Fwd ℝ)
    (fo po : Option FloatPeriod) {start stop period : ℝ} (h : start + period ≤ stop) :
    bond floatCal back (plainPaymentDates floatCal FloatPeriod.times start stop (.num period)) start stop notional dc c f fo po =
      .error .diverges := by
  rw [C65_numeric_violated h]
  rfl

/-- C65 (refuted): the default swap is never built. -/
theorem C65_swap_violated (back : ℝ → ℝ → Py ℝ) (n : ℝ) (dc rdc : ProductDayCount ℝ) (c rc : ℝ) (f rf : Fwd ℝ)
    (fo po : Option FloatPeriod) {start stop period rperiod : ℝ} (h : start + period ≤ stop) :
    interestRateSwap floatCal back (plainPaymentDates floatCal FloatPeriod.times start stop (.num period))
      (plainPaymentDates floatCal FloatPeriod.times start stop (.num rperiod)) start n dc rdc c rc f rf fo po =
      .error .diverges := by
  rw [C65_numeric_violated h]
  rfl

/-- The defaults `start_date=0.0, end_date=10.0, period=1`. -/
example : plainPaymentDates floatCal FloatPeriod.times 0 10 (.num 1) = .error .diverges := C65_numeric_violated (by norm_num)

example : plainPaymentDates floatCal FloatPeriod.times 0 (1 / 2) (.num 1) = .error .type := C65_short_violated (by norm_num)

/-! ## C67: asset swaps -/

section
variable {D P : Type} [LinearOrder D] {cal : Cal D P}

/-- C67 (refuted): `asset_swap` raises `TypeError` for every coupon leg. -/
theorem C67_violated (leg : CF D P) (sched : Py (List D)) : assetSwap cal leg sched = .error .type := by
  simp [assetSwap, intTimes, cashFlowMethods]

end

/-! ## C66: bonds -/

section
variable {D P : Type} [LinearOrder D] {cal : Cal D P}

/-- The floating rate `r` of a coupon for a period beginning at `s`: zero without forward curve, else the quote at the
fixing date. -/
inductive Floats (cal : Cal D P) (f : Fwd D) (fo : Option P) (s : D) : ℝ → Prop
  | none (h : f = .none) : Floats cal f fo s 0
  | curve {fix : D} {r : ℝ} (hf : cal.minus fo s = .ok fix) (hq : Quotes f fix r) : Floats cal f fo s r

theorem Floats.eval {f : Fwd D} {p : RatePay D P} {r c : ℝ} (h : Floats cal f p.fixingOffset p.start r)
    (hc : p.fixedRate = some c) :
    (PayOff.rate p).eval cal (.fwd f) = .ok ((c + r) * (p.dayCount.getD cal.dayCount) p.start p.stop * p.amount) := by
  cases h with
  | none h => rw [h, C50_no_curve hc]; simp
  | curve hf hq => exact C50_formula (.inl rfl) hq hf hc

/-- The day count function meant by the argument of the builders, if it is not a name. -/
def ProductDayCount.Means (cal : Cal D P) : ProductDayCount D → (D → D → ℝ) → Prop
  | .none, g => g = cal.dayCount
  | .fn f, g => g = f
  | .name s, g => s = "" ∧ g = cal.dayCount

/-- What the coupon leg is: the dates, and the flow of each period on the notional of that period. -/
structure Coupons (cal : Cal D P) (l : CFList D P) (start : D) (dates : List D) (pay : ℕ → ℝ) : Prop where
  keyed : l.Keyed
  domain : l.domain = dates
  origin : l.origin? = some start
  model : l.hasModel = false
  flow : ∀ i (hi : i < dates.length), l.getitem cal dates[i] = .ok (pay i)

theorem couponLeg_of {back : D → D → Py D} {dates : List D} {as : List ℝ} {start : D} {dc : ProductDayCount D} {g : D → D → ℝ}
    {fo po : Option P} {c : ℝ} {f : Fwd D} {sh : D → D} {r : ℕ → ℝ} {pay : ℕ → ℝ} (hg : dc.Means cal g) (hd : dates ≠ [])
    (hn : dates.Nodup) (hl : as.length = dates.length) (hs : ∀ d ∈ start :: dates, cal.minus po d = .ok (sh d))
    (hr : ∀ i (hi : i < dates.length), Floats cal f fo (sh ((start :: dates)[i]'(by simp; omega))) (r i))
    (hp : ∀ i (hi : i < dates.length), pay i = (c + r i) * g (sh ((start :: dates)[i]'(by simp; omega))) (sh dates[i]) * as[i]) :
    ∃ l, couponLeg cal back dates as start dc fo po c f = .ok l ∧ Coupons cal l start dates pay := by
  have key : ∀ dc' : Option (D → D → ℝ), dc'.getD cal.dayCount = g →
      ∃ l, CFList.newRate cal back dates (.list as) (some start) dc' fo po c f = .ok l ∧ Coupons cal l start dates pay := by
    intro dc' hdc
    have hnew := newRate_eq (cal := cal) (back := back) (amounts := .list as) (dc := dc') (fo := fo) (c := c) (f := f)
      (starts := start :: dates.dropLast) (o := some start) (sh := sh) rfl
      (dropLast_cons_length start hd) (fun d h => hs d (mem_starts h)) hl hn
    refine ⟨_, hnew, ?_, rfl, rfl, rfl, fun i hi => ?_⟩
    · rw [CFList.newRate] at hnew
      obtain ⟨_, -, h⟩ := Py.bind_eq_ok.1 hnew
      obtain ⟨_, -, h⟩ := Py.bind_eq_ok.1 h
      exact CFList.keyed_ofPayoffs h
    · have hgets := rateFlow_get (P := P) (starts := start :: dates.dropLast) (sh := sh) (dc := dc') (fo := fo) (c := c)
        (dropLast_cons_length start hd).ge hl hn i hi
      have hst : (start :: dates.dropLast)[i]'(by rw [dropLast_cons_length start hd]; exact hi) =
          (start :: dates)[i]'(by simp; omega) := by
        cases i with
        | zero => rfl
        | succ i => simp
      simp only [CFList.getitem, NumArg.expand]
      rw [hgets, hp i hi]
      simp only [hst]
      exact Floats.eval (p := ⟨_, _, _, _, _, _⟩) (hr i hi) rfl |>.trans (by rw [← hdc])
  cases dc with
  | none => exact key none hg.symm
  | fn f => exact key (some f) hg.symm
  | name s =>
    obtain ⟨rfl, rfl⟩ := hg
    simpa [couponLeg] using key none rfl

theorem couponLeg_keyed {back : D → D → Py D} {dates : List D} {as : List ℝ} {start : D} {dc : ProductDayCount D}
    {fo po : Option P} {c : ℝ} {f : Fwd D} {l : CFList D P} (h : couponLeg cal back dates as start dc fo po c f = .ok l) :
    l.Keyed := by
  have key : ∀ {dc' : Option (D → D → ℝ)}, CFList.newRate cal back dates (.list as) (some start) dc' fo po c f = .ok l → l.Keyed := by
    intro dc' h
    rw [CFList.newRate] at h
    obtain ⟨_, -, h⟩ := Py.bind_eq_ok.1 h
    obtain ⟨_, -, h⟩ := Py.bind_eq_ok.1 h
    exact CFList.keyed_ofPayoffs h
  cases dc with
  | none => exact key h
  | fn f => exact key h
  | name s =>
    simp only [couponLeg] at h
    split_ifs at h
    · exact key h
    · obtain ⟨_, -, h⟩ := Py.bind_eq_ok.1 h
      obtain ⟨_, -, h⟩ := Py.bind_eq_ok.1 h
      exact CFList.keyed_ofPayoffs h

theorem outstandings_length (out : ℝ) (plan : List ℝ) : (outstandings out plan).length = plan.length := by
  induction plan generalizing out with
  | nil => rfl
  | cons p ps ih => simp [outstandings, ih]

theorem outstandings_get (plan : List ℝ) (i : ℕ) (hi : i < plan.length) :
    (outstandings plan.sum plan)[i]'(by rw [outstandings_length]; exact hi) = (plan.drop i).sum := by
  induction plan generalizing i with
  | nil => simp at hi
  | cons p ps ih =>
    cases i with
    | zero => rfl
    | succ i =>
      have : outstandings (p :: ps).sum (p :: ps) = (p :: ps).sum :: outstandings ps.sum ps := by
        rw [outstandings]; congr 2; simp
      simp only [this, List.getElem_cons_succ, List.drop_succ_cons]
      exact ih i (by simpa using hi)

theorem fixedLeg_of {dates : List D} {as : List ℝ} (o : D) (hl : as.length = dates.length) (hn : dates.Nodup) :
    ∃ l : CFList D P, CFList.newFixed dates (.list as) (some o) = .ok l ∧ l.Keyed ∧ l.domain = dates ∧ l.origin? = some o ∧
      l.hasModel = false ∧ ∀ i (hi : i < dates.length), l.getitem cal dates[i] = .ok (as[i]) := by
  have hnew : CFList.newFixed (P := P) dates (.list as) (some o) =
      .ok ⟨some o, dates, Dict.ofPairs (dates.zip (as.map .fixed)), .fwd .none, false⟩ := by
    simp [CFList.newFixed, CFList.ofPayoffs, NumArg.expand, hl]
  refine ⟨_, hnew, CFList.keyed_ofPayoffs hnew, rfl, rfl, rfl, fun i hi => ?_⟩
  have := Dict.get_ofPairs_idx (dates.zip (as.map (PayOff.fixed (D := D) (P := P)))) i (by simp; omega) (by
    intro j hj hij e
    simp only [List.getElem_zip] at e
    exact hij.ne' (hn.getElem_inj_iff.1 e))
  simp only [List.getElem_zip, List.getElem_map] at this
  simp only [CFList.getitem]
  rw [this]
  rfl

theorem twoLegs_of {ln lk : CFList D P} {start : D} {dates : List D} {pay : ℕ → ℝ} (hnk : ln.Keyed) (hno : ln.origin? = some start)
    (hk : Coupons cal lk start dates pay) :
    ∃ b, CF.newLegs [.flat ln, .flat lk] = .ok b ∧ b.origin = some start ∧ (∀ d, d ∈ b.domain ↔ d ∈ ln.domain ∨ d ∈ lk.domain) ∧
      b.domain.Pairwise (· < ·) ∧
      ∀ d x y, ln.getitem cal d = .ok x → lk.getitem cal d = .ok y → b.getitem cal d = .ok (x + y) := by
  have ho : ∀ l : CFList D P, l.origin? = some start → CF.origin (.flat l) = some start := by
    intro l h; simp [CF.origin, CFList.origin, h]
  obtain ⟨b, o, hb, hbo, -, hle⟩ := C47_origin (ls := [.flat ln, .flat lk]) (by simp) (by simp [ho _ hno, ho _ hk.origin])
  have hB : ∀ l ∈ [CF.flat ln, CF.flat lk], l.Built := by
    intro l hl
    simp at hl
    rcases hl with rfl | rfl
    · exact .flat hnk
    · exact .flat hk.keyed
  have hdom := C47_domain hb
  refine ⟨b, hb, ?_, fun d => ?_, hdom.1, fun d x y hx hy => ?_⟩
  · obtain ⟨o', rfl, hm⟩ := CF.newLegs_eq hb
    simp [minOrigin, ho _ hno, ho _ hk.origin] at hm
    simp [CF.origin, ← hm]
  · rw [hdom.2 d]
    simp [CF.domain]
  · rw [C47_flow hB hb]
    simp only [pyMap_cons, pyMap_nil, CF.getitem, hx, hy, Py.ok_bind, Py.map_ok]
    simp

theorem Coupons.off {l : CFList D P} {start : D} {dates : List D} {pay : ℕ → ℝ} (h : Coupons cal l start dates pay) {d : D}
    (hd : d ∉ dates) : l.getitem cal d = .ok 0 := by
  have := CF.Built.off (cal := cal) (.flat h.keyed) (d := d) (by simpa [CF.domain, h.domain] using hd)
  simpa [CF.getitem] using this

/-- C66: a bond with a redemption plan on the payment dates pays the whole plan at the start, and on each payment date
the redemption and the interest on what is still outstanding. -/
theorem C66_plan (back : D → D → Py D) {dates : List D} {plan : List ℝ} {start stop : D} {dc : ProductDayCount D}
    {g : D → D → ℝ} {fo po : Option P} {c : ℝ} {f : Fwd D} {sh : D → D} {r : ℕ → ℝ} (hg : dc.Means cal g) (hd : dates ≠ [])
    (hn : dates.Nodup) (h0 : start ∉ dates) (hl : plan.length = dates.length)
    (hs : ∀ d ∈ start :: dates, cal.minus po d = .ok (sh d))
    (hr : ∀ i (hi : i < dates.length), Floats cal f fo (sh ((start :: dates)[i]'(by simp; omega))) (r i)) :
    ∃ b, bond cal back (.ok dates) start stop (.list plan) dc c f fo po = .ok b ∧ b.origin = some start ∧
      b.domain.Pairwise (· < ·) ∧ (∀ d, d ∈ b.domain ↔ d = start ∨ d ∈ dates) ∧ b.getitem cal start = .ok (-plan.sum) ∧
      ∀ i (hi : i < dates.length), b.getitem cal dates[i] =
        .ok (plan[i] + (c + r i) * g (sh ((start :: dates)[i]'(by simp; omega))) (sh dates[i]) * (plan.drop i).sum) := by
  obtain ⟨ln, hln, hnk, hnd, hno, -, hnf⟩ := fixedLeg_of (P := P) (cal := cal) (dates := start :: dates)
    (as := -(pySum plan) :: plan) start (by simp [hl]) (by simp [h0, hn])
  have hpl : ∀ i (hi : i < dates.length), i < (outstandings plan.sum plan).length := fun i hi => by
    rw [outstandings_length]; omega
  obtain ⟨lk, hlk, hk⟩ := couponLeg_of (cal := cal) (back := back) (as := outstandings plan.sum plan) (r := r) (f := f)
    (fo := fo) (po := po) (c := c) (sh := sh) (start := start)
    (pay := fun i => if hi : i < dates.length then
      (c + r i) * g (sh ((start :: dates)[i]'(by simp; omega))) (sh dates[i]) * (plan.drop i).sum else 0)
    hg hd hn (by rw [outstandings_length, hl]) hs hr (fun i hi => by
      rw [dif_pos hi, outstandings_get _ _ (by omega)])
  obtain ⟨b, hb, hbo, hbd, hbp, hbf⟩ := twoLegs_of hnk hno hk
  refine ⟨b, ?_, hbo, hbp, fun d => ?_, ?_, fun i hi => ?_⟩
  · simp only [bond, notionalPlan, hl, if_true, Py.ok_bind, hln]
    rw [pySum_eq, hlk]
    exact hb
  · rw [hbd, hnd, hk.domain]; simp
  · have := hnf 0 (by simp)
    have := hbf start _ _ this (hk.off h0)
    simpa using this
  · have := hnf (i + 1) (by simpa using hi)
    have := hbf dates[i] _ _ this (hk.flow i hi)
    simpa [hi] using this

/-- C66: a bond with a number as notional pays it at the start, receives it at the end, and receives interest on it at
each payment date. -/
theorem C66_bullet (back : D → D → Py D) {dates : List D} {n : ℝ} {start stop : D} {dc : ProductDayCount D}
    {g : D → D → ℝ} {fo po : Option P} {c : ℝ} {f : Fwd D} {sh : D → D} {r : ℕ → ℝ} (hg : dc.Means cal g) (hd : dates ≠ [])
    (hn : dates.Nodup) (h0 : start ∉ dates) (hne : start ≠ stop)
    (hs : ∀ d ∈ start :: dates, cal.minus po d = .ok (sh d))
    (hr : ∀ i (hi : i < dates.length), Floats cal f fo (sh ((start :: dates)[i]'(by simp; omega))) (r i)) :
    ∃ b, bond cal back (.ok dates) start stop (.scalar n) dc c f fo po = .ok b ∧ b.origin = some start ∧
      b.domain.Pairwise (· < ·) ∧ (∀ d, d ∈ b.domain ↔ d = start ∨ d = stop ∨ d ∈ dates) ∧ b.getitem cal start = .ok (-n) ∧
      (stop ∉ dates → b.getitem cal stop = .ok n) ∧
      ∀ i (hi : i < dates.length), b.getitem cal dates[i] =
        .ok ((if dates[i] = stop then n else 0) +
          (c + r i) * g (sh ((start :: dates)[i]'(by simp; omega))) (sh dates[i]) * n) := by
  obtain ⟨ln, hln, hnk, hnd, hno, -, hnf⟩ := fixedLeg_of (P := P) (cal := cal) (dates := [start, stop])
    (as := [-n, n]) start rfl (by simp [hne])
  obtain ⟨lk, hlk, hk⟩ := couponLeg_of (cal := cal) (back := back) (as := List.replicate dates.length n) (r := r) (f := f)
    (fo := fo) (po := po) (c := c) (sh := sh) (start := start)
    (pay := fun i => if hi : i < dates.length then
      (c + r i) * g (sh ((start :: dates)[i]'(by simp; omega))) (sh dates[i]) * n else 0)
    hg hd hn (by simp) hs hr (fun i hi => by simp [hi])
  obtain ⟨b, hb, hbo, hbd, hbp, hbf⟩ := twoLegs_of hnk hno hk
  have hns := hnf 0 (by simp)
  have hne' := hnf 1 (by simp)
  simp only [List.getElem_cons_zero, List.getElem_cons_succ] at hns hne'
  refine ⟨b, ?_, hbo, hbp, fun d => ?_, ?_, fun hst => ?_, fun i hi => ?_⟩
  · simp only [bond, notionalPlan, Py.ok_bind, hln, hlk]
    exact hb
  · rw [hbd, hnd, hk.domain]; simp; tauto
  · simpa using hbf start _ _ hns (hk.off h0)
  · simpa using hbf stop _ _ hne' (hk.off hst)
  · by_cases he : dates[i] = stop
    · rw [← he] at hne'
      have := hbf dates[i] _ _ hne' (hk.flow i hi)
      simpa [hi, he] using this
    · have hoff : ln.getitem cal dates[i] = .ok 0 := by
        have := CF.Built.off (cal := cal) (.flat hnk) (d := dates[i]) (by
          have : dates[i] ≠ start := fun e => h0 (e ▸ List.getElem_mem hi)
          simp [CF.domain, hnd, he, this])
        simpa [CF.getitem] using this
      have := hbf dates[i] _ _ hoff (hk.flow i hi)
      simpa [hi, he] using this

/-- C66: a plan of other length than the payment dates is rejected. -/
theorem C66_length (back : D → D → Py D) {dates : List D} {plan : List ℝ} (start stop : D) (dc : ProductDayCount D)
    (fo po : Option P) (c : ℝ) (f : Fwd D) (hl : plan.length ≠ dates.length) :
    bond cal back (.ok dates) start stop (.list plan) dc c f fo po = .error .value := by
  simp [bond, notionalPlan, hl]

theorem perm_of_strict {l m : List D} (hl : l.Pairwise (· < ·)) (hm : m.Nodup) (h : ∀ d, d ∈ l ↔ d ∈ m) : l.Perm m :=
  (List.perm_ext_iff_of_nodup (hl.imp ne_of_lt) hm).2 h

/-- C66: all notional paid is redeemed: the flows of a bond with a plan add up to the interest. -/
theorem C66_total (back : D → D → Py D) {dates : List D} {plan : List ℝ} {start stop : D} {dc : ProductDayCount D}
    {g : D → D → ℝ} {fo po : Option P} {c : ℝ} {f : Fwd D} {sh : D → D} {r : ℕ → ℝ} (hg : dc.Means cal g) (hd : dates ≠ [])
    (hn : dates.Nodup) (h0 : start ∉ dates) (hl : plan.length = dates.length)
    (hs : ∀ d ∈ start :: dates, cal.minus po d = .ok (sh d))
    (hr : ∀ i (hi : i < dates.length), Floats cal f fo (sh ((start :: dates)[i]'(by simp; omega))) (r i)) :
    ∃ b flows, bond cal back (.ok dates) start stop (.list plan) dc c f fo po = .ok b ∧
      pyMap (b.getitem cal) b.domain = .ok flows ∧
      flows.sum = (List.ofFn fun i : Fin dates.length =>
        (c + r i) * g (sh ((start :: dates)[(i : ℕ)]'(by have := i.2; simp))) (sh dates[i]) * (plan.drop i).sum).sum := by
  obtain ⟨b, hb, -, hp, hm, hst, hfl⟩ := C66_plan (cal := cal) back (stop := stop) hg hd hn h0 hl hs hr (c := c)
  let x : D → ℝ := fun d => match b.getitem cal d with
    | .ok y => y
    | .error _ => 0
  have hx : ∀ d ∈ b.domain, b.getitem cal d = .ok (x d) := by
    intro d hd
    rcases (hm d).1 hd with rfl | hd
    · simp [x, hst]
    · obtain ⟨i, hi, rfl⟩ := List.getElem_of_mem hd
      simp [x, hfl i hi]
  refine ⟨b, b.domain.map x, hb, pyMap_ok hx, ?_⟩
  have hperm := perm_of_strict hp (m := start :: dates) (by simp [h0, hn]) (by simpa using hm)
  rw [(hperm.map x).sum_eq]
  have e : dates.map x = List.ofFn fun i : Fin dates.length => x dates[i] := by
    apply List.ext_getElem <;> simp
  have e2 : plan = List.ofFn fun i : Fin dates.length => plan[i]'(by have := i.2; omega) := by
    apply List.ext_getElem <;> simp [hl]
  have xi : ∀ i : Fin dates.length, x dates[i] = plan[i]'(by have := i.2; omega) +
      (c + r i) * g (sh ((start :: dates)[(i : ℕ)]'(by have := i.2; simp))) (sh dates[i]) * (plan.drop i).sum := by
    intro i
    have := hfl i i.2
    simp only [Fin.getElem_fin] at this ⊢
    simp [x, this]
  rw [List.map_cons, List.sum_cons, e]
  simp only [xi, List.sum_ofFn, Finset.sum_add_distrib]
  have hx0 : x start = -plan.sum := by simp [x, hst]
  have : plan.sum = ∑ i : Fin dates.length, plan[i]'(by have := i.2; omega) := by
    conv_lhs => rw [e2]
    rw [List.sum_ofFn]
  rw [hx0, this]
  ring

/-- C66: a bullet bond whose last payment date is its end is the bond with the plan of one redemption at the end. -/
theorem C66_bullet_plan (back : D → D → Py D) {dates : List D} {n : ℝ} {start stop : D} {dc : ProductDayCount D}
    {g : D → D → ℝ} {fo po : Option P} {c : ℝ} {f : Fwd D} {sh : D → D} {r : ℕ → ℝ} (hg : dc.Means cal g)
    (hn : (dates ++ [stop]).Nodup) (h0 : start ∉ dates ++ [stop])
    (hs : ∀ d ∈ start :: (dates ++ [stop]), cal.minus po d = .ok (sh d))
    (hr : ∀ i (hi : i < (dates ++ [stop]).length), Floats cal f fo (sh ((start :: (dates ++ [stop]))[i]'(by simp at hi ⊢; omega))) (r i)) :
    ∃ b b', bond cal back (.ok (dates ++ [stop])) start stop (.scalar n) dc c f fo po = .ok b ∧
      bond cal back (.ok (dates ++ [stop])) start stop (.list (List.replicate dates.length 0 ++ [n])) dc c f fo po = .ok b' ∧
      b.domain = b'.domain ∧ ∀ d, b.getitem cal d = b'.getitem cal d := by
  have hd : dates ++ [stop] ≠ [] := by simp
  have hne : start ≠ stop := fun e => h0 (by simp [e])
  obtain ⟨b, hb, -, hbp, hbm, hb0, -, hbf⟩ := C66_bullet (cal := cal) back hg hd hn h0 hne hs hr (c := c) (n := n)
  obtain ⟨b', hb', -, hbp', hbm', hb0', hbf'⟩ := C66_plan (cal := cal) back hg hd hn h0 (stop := stop)
    (plan := List.replicate dates.length 0 ++ [n]) (by simp) hs hr (c := c)
  have hdom : ∀ d, d ∈ b.domain ↔ d ∈ b'.domain := by
    intro d; rw [hbm, hbm']; simp; tauto
  refine ⟨b, b', hb, hb', ?_, fun d => ?_⟩
  · have := perm_of_strict hbp (hbp'.imp ne_of_lt) hdom
    exact this.eq_of_pairwise (le := (· < ·)) (fun a b _ _ h h' => absurd h h'.asymm) hbp hbp'
  · by_cases h : d = start
    · subst h
      rw [hb0, hb0']; simp
    · by_cases hm : d ∈ dates ++ [stop]
      · obtain ⟨i, hi, rfl⟩ := List.getElem_of_mem hm
        rw [hbf i hi, hbf' i hi]
        have hi' : i ≤ dates.length := by simp at hi; omega
        have hsum : ((List.replicate dates.length (0 : ℝ) ++ [n]).drop i).sum = n := by
          rw [List.drop_append_of_le_length (by simpa using hi')]
          simp
        rw [hsum]
        congr 2
        rcases hi'.lt_or_eq with hlt | rfl
        · have : (dates ++ [stop])[i] ≠ stop := by
            rw [List.getElem_append_left hlt]
            intro e
            rw [List.nodup_append] at hn
            exact hn.2.2 _ (List.getElem_mem hlt) _ (by simp) e
          rw [if_neg this, List.getElem_append_left (by simpa using hlt)]
          simp
        · simp
      · have off : ∀ {x : CF D P} {nt : NumArg}, bond cal back (.ok (dates ++ [stop])) start stop nt dc c f fo po = .ok x →
            d ∉ x.domain → x.getitem cal d = .ok 0 := by
          intro x nt hx hdx
          simp only [bond, Py.ok_bind] at hx
          obtain ⟨pl, -, hx⟩ := Py.bind_eq_ok.1 hx
          obtain ⟨ln, hln, hx⟩ := Py.bind_eq_ok.1 hx
          obtain ⟨lk, hlk, hx⟩ := Py.bind_eq_ok.1 hx
          refine CF.Built.off (.legs (ls := [.flat ln, .flat lk]) ?_ hx) hdx
          intro l hl
          simp at hl
          rcases hl with rfl | rfl
          · exact .flat (CFList.keyed_ofPayoffs hln)
          · exact .flat (couponLeg_keyed hlk)
        have h1 : d ∉ b'.domain := by rw [hbm']; tauto
        rw [off hb (by rwa [hdom]), off hb' h1]

/-! ## C105: swaps -/

/-- C105: a swap pays the coupons of its pay leg and receives those of its receive leg. -/
theorem C105_flows (back : D → D → Py D) {dates rdates : List D} {n : ℝ} {start : D} {dc rdc : ProductDayCount D}
    {g rg : D → D → ℝ} {fo po : Option P} {c rc : ℝ} {f rf : Fwd D} {sh : D → D} {r rr : ℕ → ℝ} (hg : dc.Means cal g)
    (hrg : rdc.Means cal rg) (hd : dates ≠ []) (hrd : rdates ≠ []) (hn : dates.Nodup) (hrn : rdates.Nodup)
    (hs : ∀ d ∈ start :: (dates ++ rdates), cal.minus po d = .ok (sh d))
    (hr : ∀ i (hi : i < dates.length), Floats cal f fo (sh ((start :: dates)[i]'(by simp; omega))) (r i))
    (hrr : ∀ i (hi : i < rdates.length), Floats cal rf fo (sh ((start :: rdates)[i]'(by simp; omega))) (rr i)) :
    ∃ b, interestRateSwap cal back (.ok dates) (.ok rdates) start n dc rdc c rc f rf fo po = .ok b ∧ b.origin = some start ∧
      b.domain.Pairwise (· < ·) ∧ (∀ d, d ∈ b.domain ↔ d ∈ dates ∨ d ∈ rdates) ∧
      (∀ i (hi : i < dates.length), dates[i] ∉ rdates → b.getitem cal dates[i] =
        .ok (-((c + r i) * g (sh ((start :: dates)[i]'(by simp; omega))) (sh dates[i]) * n))) ∧
      (∀ i (hi : i < rdates.length), rdates[i] ∉ dates → b.getitem cal rdates[i] =
        .ok ((rc + rr i) * rg (sh ((start :: rdates)[i]'(by simp; omega))) (sh rdates[i]) * n)) ∧
      ∀ i j (hi : i < dates.length) (hj : j < rdates.length), dates[i] = rdates[j] → b.getitem cal dates[i] =
        .ok ((rc + rr j) * rg (sh ((start :: rdates)[j]'(by simp; omega))) (sh rdates[j]) * n -
          (c + r i) * g (sh ((start :: dates)[i]'(by simp; omega))) (sh dates[i]) * n) := by
  obtain ⟨lk, hlk, hk⟩ := couponLeg_of (cal := cal) (back := back) (as := List.replicate dates.length (-n)) (r := r) (f := f)
    (fo := fo) (po := po) (c := c) (sh := sh) (start := start)
    (pay := fun i => if hi : i < dates.length then
      -((c + r i) * g (sh ((start :: dates)[i]'(by simp; omega))) (sh dates[i]) * n) else 0)
    hg hd hn (by simp) (fun d h => hs d (by simp at h ⊢; tauto)) hr (fun i hi => by simp [hi])
  obtain ⟨lr, hlr, hrk⟩ := couponLeg_of (cal := cal) (back := back) (as := List.replicate rdates.length n) (r := rr) (f := rf)
    (fo := fo) (po := po) (c := rc) (sh := sh) (start := start)
    (pay := fun i => if hi : i < rdates.length then
      (rc + rr i) * rg (sh ((start :: rdates)[i]'(by simp; omega))) (sh rdates[i]) * n else 0)
    hrg hrd hrn (by simp) (fun d h => hs d (by simp at h ⊢; tauto)) hrr (fun i hi => by simp [hi])
  obtain ⟨b, hb, hbo, hbd, hbp, hbf⟩ := twoLegs_of hk.keyed hk.origin hrk
  refine ⟨b, ?_, hbo, hbp, fun d => ?_, fun i hi h => ?_, fun i hi h => ?_, fun i j hi hj h => ?_⟩
  · simp only [interestRateSwap, Py.ok_bind, hlk, hlr]
    exact hb
  · rw [hbd, hk.domain, hrk.domain]
  · simpa [hi] using hbf _ _ _ (hk.flow i hi) (hrk.off h)
  · simpa [hi] using hbf _ _ _ (hk.off h) (hrk.flow i hi)
  · have h2 := hrk.flow j hj
    rw [← h] at h2
    have := hbf _ _ _ (hk.flow i hi) h2
    rw [this]
    simp only [hi, hj, dif_pos, h]
    congr 1; ring

/-- C105: a swap of equal legs pays nothing. -/
theorem C105_equal_legs (back : D → D → Py D) {dates : List D} {n : ℝ} {start : D} {dc : ProductDayCount D}
    {g : D → D → ℝ} {fo po : Option P} {c : ℝ} {f : Fwd D} {sh : D → D} {r : ℕ → ℝ} (hg : dc.Means cal g)
    (hd : dates ≠ []) (hn : dates.Nodup) (hs : ∀ d ∈ start :: dates, cal.minus po d = .ok (sh d))
    (hr : ∀ i (hi : i < dates.length), Floats cal f fo (sh ((start :: dates)[i]'(by simp; omega))) (r i)) :
    ∃ b, interestRateSwap cal back (.ok dates) (.ok dates) start n dc dc c c f f fo po = .ok b ∧
      ∀ d ∈ b.domain, b.getitem cal d = .ok 0 := by
  obtain ⟨b, hb, -, -, hm, -, -, h⟩ := C105_flows (cal := cal) back (n := n) (c := c) (rc := c) hg hg hd hd hn hn
    (fun d h => hs d (by simp at h ⊢; tauto)) hr hr
  refine ⟨b, hb, fun d hd => ?_⟩
  rw [hm, or_self] at hd
  obtain ⟨i, hi, rfl⟩ := List.getElem_of_mem hd
  rw [h i i hi hi rfl]
  simp

/-! ## C104: named day counts -/

/-- C104 (refuted): with a day count name, as the default, the builders return but every coupon raises `TypeError`. -/
theorem C104_violated (back : D → D → Py D) {dates : List D} {n : ℝ} {start stop : D} {s : String} {fo po : Option P} {c : ℝ}
    {f : Fwd D} {sh : D → D} (hname : s ≠ "") (hd : dates ≠ []) (hne : start ≠ stop)
    (hs : ∀ d ∈ start :: dates, cal.minus po d = .ok (sh d)) :
    ∃ b, bond cal back (.ok dates) start stop (.scalar n) (.name s) c f fo po = .ok b ∧
      ∀ d ∈ dates, b.getitem cal d = .error .type := by
  obtain ⟨ln, hln, hnk, hnd, hno, -, hnf⟩ := fixedLeg_of (P := P) (cal := cal) (dates := [start, stop])
    (as := [-n, n]) start rfl (by simp [hne])
  have hev : ∀ d, ∃ x, ln.getitem cal d = .ok x := by
    intro d
    by_cases hm : d ∈ [start, stop]
    · obtain ⟨i, hi, rfl⟩ := List.getElem_of_mem hm
      exact ⟨_, hnf i hi⟩
    · refine ⟨0, ?_⟩
      have := CF.Built.off (cal := cal) (.flat hnk) (d := d) (by simpa [CF.domain, hnd] using hm)
      simpa [CF.getitem] using this
  have hlk : couponLeg cal back dates (List.replicate dates.length n) start (.name s) fo po c f =
      .ok ⟨some start, dates, Dict.ofPairs (dates.zip (List.replicate dates.length (.fn fun _ => .error .type))), .fwd f, false⟩ := by
    have hlen := dropLast_cons_length start hd
    have : ratePays cal (start :: dates.dropLast) dates (List.replicate dates.length n) po
        (fun _ _ _ => PayOff.fn fun _ => .error .type) = .ok (List.replicate dates.length (.fn fun _ => .error .type)) := by
      rw [ratePays_eq _ (fun d h => hs d (mem_starts h))]
      congr 1
      rw [List.map_const']
      simp [hlen]
    simp only [couponLeg, if_neg hname, accrualStarts, Py.ok_bind, this]
    simp [CFList.ofPayoffs]
  have hget : ∀ d ∈ dates, Dict.get (Dict.ofPairs (dates.zip (List.replicate dates.length
      (PayOff.fn (D := D) (P := P) fun _ => .error .type)))) d = some (.fn fun _ => .error .type) := by
    intro d hd
    cases hg : Dict.get (Dict.ofPairs (dates.zip (List.replicate dates.length
      (PayOff.fn (D := D) (P := P) fun _ => .error .type)))) d with
    | none =>
      rw [Dict.get_none, Dict.mem_ofPairs_keys, List.map_fst_zip (by simp)] at hg
      exact absurd hd hg
    | some p =>
      have := List.of_mem_zip (Dict.mem_of_ofPairs (Dict.get_mem hg))
      rw [(List.mem_replicate.1 this.2).2]
  obtain ⟨b, o, hb, -⟩ := C47_origin (ls := [.flat ln, .flat (⟨some start, dates, Dict.ofPairs (dates.zip
    (List.replicate dates.length (.fn fun _ => .error .type))), .fwd f, false⟩ : CFList D P)]) (by simp)
    (by simp [CF.origin, CFList.origin, hno])
  refine ⟨b, ?_, fun d hd => ?_⟩
  · simp only [bond, notionalPlan, Py.ok_bind, hln, hlk]
    exact hb
  · rw [C47_flow ?_ hb]
    · obtain ⟨x, hx⟩ := hev d
      simp only [pyMap_cons, CF.getitem, hx, Py.ok_bind]
      simp [CFList.getitem, hget d hd, PayOff.eval]
    · intro l hl
      simp at hl
      rcases hl with rfl | rfl
      · exact .flat hnk
      · exact .flat (couponLeg_keyed hlk)

/-- C104: without day count, with an empty name or with a function, every flow of the bond is a number. -/
theorem C104_partial (back : D → D → Py D) {dates : List D} {n : ℝ} {start stop : D} {dc : ProductDayCount D}
    {g : D → D → ℝ} {fo po : Option P} {c : ℝ} {f : Fwd D} {sh : D → D} {r : ℕ → ℝ} (hg : dc.Means cal g) (hd : dates ≠ [])
    (hn : dates.Nodup) (h0 : start ∉ dates) (hne : start ≠ stop)
    (hs : ∀ d ∈ start :: dates, cal.minus po d = .ok (sh d))
    (hr : ∀ i (hi : i < dates.length), Floats cal f fo (sh ((start :: dates)[i]'(by simp; omega))) (r i)) :
    ∃ b, bond cal back (.ok dates) start stop (.scalar n) dc c f fo po = .ok b ∧
      ∀ d ∈ b.domain, ∃ x, b.getitem cal d = .ok x := by
  obtain ⟨b, hb, -, -, hm, hs, he, h⟩ := C66_bullet (cal := cal) back (n := n) (c := c) hg hd hn h0 hne hs hr
  refine ⟨b, hb, fun d hd => ?_⟩
  by_cases hdd : d ∈ dates
  · obtain ⟨i, hi, rfl⟩ := List.getElem_of_mem hdd
    exact ⟨_, h i hi⟩
  · rcases (hm d).1 hd with rfl | rfl | hx
    · exact ⟨_, hs⟩
    · exact ⟨_, he hdd⟩
    · exact absurd hx hdd

/-! ## Cases -/

theorem dayMinus_none (d : ℤ) : dayCal.minus none d = .ok (id d) := rfl

/-- A two year bond with margin over a flat forward rate. -/
example (back : ℤ → ℤ → Py ℤ) : ∃ b, bond dayCal back (.ok [365, 730]) 0 730 (.scalar 100) .none (1 / 100) (.num (1 / 50)) none none = .ok b ∧
    b.getitem dayCal 0 = .ok (-100) ∧ b.getitem dayCal 730 = .ok (100 + (1 / 100 + 1 / 50) * dayCal.dayCount 365 730 * 100) := by
  obtain ⟨b, hb, -, -, -, h0, -, h⟩ := C66_bullet (cal := dayCal) back (dates := [365, 730]) (n := 100) (start := 0) (stop := 730)
    (dc := .none) (g := dayCal.dayCount) (fo := none) (po := none) (c := 1 / 100) (f := .num (1 / 50)) (sh := id)
    (r := fun _ => 1 / 50) rfl (by simp) (by simp) (by simp) (by simp) (fun d _ => dayMinus_none d)
    (fun i hi => .curve (dayMinus_none _) (.num _ _))
  exact ⟨b, hb, h0, by simpa using h 1 (by simp)⟩

/-- Repayment in two parts: the second coupon is paid on 60. -/
example (back : ℤ → ℤ → Py ℤ) : ∃ b, bond dayCal back (.ok [365, 730]) 0 730 (.list [40, 60]) .none (1 / 100) .none none none = .ok b ∧
    b.getitem dayCal 0 = .ok (-100) ∧ b.getitem dayCal 730 = .ok (60 + 1 / 100 * dayCal.dayCount 365 730 * 60) := by
  obtain ⟨b, hb, -, -, -, h0, h⟩ := C66_plan (cal := dayCal) back (dates := [365, 730]) (plan := [40, 60]) (start := 0) (stop := 730)
    (dc := .none) (g := dayCal.dayCount) (fo := none) (po := none) (c := 1 / 100) (f := .none) (sh := id)
    (r := fun _ => 0) rfl (by simp) (by simp) (by simp) rfl (fun d _ => dayMinus_none d) (fun i hi => .none rfl)
  refine ⟨b, hb, ?_, by simpa using h 1 (by simp)⟩
  rw [h0]; norm_num

example (back : ℤ → ℤ → Py ℤ) : ∃ b flows, bond dayCal back (.ok [365, 730]) 0 730 (.list [40, 60]) .none 0 .none none none = .ok b ∧
    pyMap (b.getitem dayCal) b.domain = .ok flows ∧ flows.sum = 0 := by
  obtain ⟨b, fl, hb, h, hs⟩ := C66_total (cal := dayCal) back (dates := [365, 730]) (plan := [40, 60]) (start := 0) (stop := 730)
    (dc := .none) (g := dayCal.dayCount) (fo := none) (po := none) (c := 0) (f := .none) (sh := id)
    (r := fun _ => 0) rfl (by simp) (by simp) (by simp) rfl (fun d _ => dayMinus_none d) (fun i hi => .none rfl)
  exact ⟨b, fl, hb, h, by rw [hs]; simp⟩

example (back : ℤ → ℤ → Py ℤ) : bond dayCal back (.ok [365, 730]) 0 730 (.list [100]) .none 0 .none none none = .error .value :=
  C66_length back 0 730 _ _ _ _ _ (by simp)

example (back : ℤ → ℤ → Py ℤ) : ∃ b b', bond dayCal back (.ok [365, 730]) 0 730 (.scalar 100) .none (1 / 100) .none none none = .ok b ∧
    bond dayCal back (.ok [365, 730]) 0 730 (.list [0, 100]) .none (1 / 100) .none none none = .ok b' ∧ b.domain = b'.domain ∧
    ∀ d, b.getitem dayCal d = b'.getitem dayCal d :=
  C66_bullet_plan (cal := dayCal) back (dates := [365]) (g := dayCal.dayCount) (sh := id)
    (r := fun _ => 0) rfl (by simp) (by simp) (fun d _ => dayMinus_none d) (fun i hi => .none rfl)

/-- Fixed against floating. -/
example (back : ℤ → ℤ → Py ℤ) : ∃ b, interestRateSwap dayCal back (.ok [730]) (.ok [365, 730]) 0 100 .none .none (1 / 50) 0 .none
    (.num (1 / 100)) none none = .ok b ∧ b.getitem dayCal 365 = .ok ((0 + 1 / 100) * dayCal.dayCount 0 365 * 100) ∧
    b.getitem dayCal 730 = .ok ((0 + 1 / 100) * dayCal.dayCount 365 730 * 100 - (1 / 50 + 0) * dayCal.dayCount 0 730 * 100) := by
  obtain ⟨b, hb, -, -, -, h1, h2, h3⟩ := C105_flows (cal := dayCal) back (dates := [730]) (rdates := [365, 730]) (n := 100)
    (start := 0) (dc := .none) (rdc := .none) (g := dayCal.dayCount) (rg := dayCal.dayCount) (fo := none) (po := none)
    (c := 1 / 50) (rc := 0) (f := .none) (rf := .num (1 / 100)) (sh := id) (r := fun _ => 0) (rr := fun _ => 1 / 100)
    rfl rfl (by simp) (by simp) (by simp) (by simp) (fun d _ => dayMinus_none d) (fun i hi => .none rfl)
    (fun i hi => .curve (dayMinus_none _) (.num _ _))
  exact ⟨b, hb, by simpa using h2 0 (by simp) (by simp), by simpa using h3 0 1 (by simp) (by simp) rfl⟩

example (back : ℤ → ℤ → Py ℤ) : ∃ b, interestRateSwap dayCal back (.ok [365, 730]) (.ok [365, 730]) 0 100 .none .none (1 / 50) (1 / 50)
    .none .none none none = .ok b ∧ ∀ d ∈ b.domain, b.getitem dayCal d = .ok 0 :=
  C105_equal_legs (cal := dayCal) back (g := dayCal.dayCount) (sh := id) (r := fun _ => 0) rfl (by simp) (by simp)
    (fun d _ => dayMinus_none d) (fun i hi => .none rfl)

/-- The default day count. -/
example (back : ℤ → ℤ → Py ℤ) : ∃ b, bond dayCal back (.ok [365, 730]) 0 730 (.scalar 1) (.name "thirty360") 0 .none none none = .ok b ∧
    ∀ d ∈ [365, 730], b.getitem dayCal d = .error .type :=
  C104_violated (cal := dayCal) back (sh := id) (by simp) (by simp) (by simp) (fun d _ => dayMinus_none d)

/-- A day count function. -/
example (back : ℤ → ℤ → Py ℤ) : ∃ b, bond dayCal back (.ok [365, 730]) 0 730 (.scalar 1) (.fn fun a b => ((b - a : ℤ) : ℝ) / 360) 0 .none none none =
    .ok b ∧ ∀ d ∈ b.domain, ∃ x, b.getitem dayCal d = .ok x :=
  C104_partial (cal := dayCal) back (sh := id) (r := fun _ => 0) rfl (by simp) (by simp) (by simp) (by simp)
    (fun d _ => dayMinus_none d) (fun i hi => .none rfl)

end

end Dcf
