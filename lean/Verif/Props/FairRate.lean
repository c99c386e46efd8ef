import Verif.Props.PresentValue
import Verif.Props.Payoff
import Verif.Props.Bracket

/-! # Fair rates: C59 -/

set_option linter.unusedSectionVars false
set_option linter.unusedVariables false

namespace Dcf

open Spec

section
variable {D P : Type} [LinearOrder D] {cal : Cal D P}

/-- The world with the fixed rate of all flows of list `a` set. -/
def World.withRate (w : World D P) (a : ℕ) (r : Option ℝ) : World D P := w.setList a ((w.lists a).setRate r)

theorem PayOff.setFixedRate_twice (r s : Option ℝ) (p : PayOff D P) :
    (p.setFixedRate r).setFixedRate s = p.setFixedRate s := by
  cases p <;> rfl

theorem World.withRate_twice (w : World D P) (a : ℕ) (r s : Option ℝ) :
    (w.withRate a r).withRate a s = w.withRate a s := by
  simp [World.withRate, World.setList, ListObj.setRate, List.map_map, Function.comp_def, PayOff.setFixedRate_twice]

theorem setRate_run (w : World D P) (a : ℕ) (r : Option ℝ) : setRate a r w = (.ok (), w.withRate a r) := rfl

@[simp] theorem World.withRate_curves (w : World D P) (a : ℕ) (r : Option ℝ) : (w.withRate a r).curves = w.curves := rfl

theorem World.withRate_dated (w : World D P) (a : ℕ) (r : Option ℝ) (v : Option D) :
    (w.withRate a r).dated v a = (w.dated v a).withRate a r := by
  cases hm : (w.lists a).hasModel <;> cases ha : (w.lists a).arg <;>
    simp [World.dated, World.withRate, World.setList, ListObj.setRate, World.setValuation, hm, ha]

theorem World.withRate_list (w : World D P) (a : ℕ) (r : Option ℝ) :
    (w.withRate a r).list a = (w.list a).setFixedRate r := by
  simp only [World.list, World.withRate, World.setList, Function.update_self, ListObj.setRate, CFList.setFixedRate]
  rfl

/-- All flows are rate payoffs. -/
def ListObj.RateFlows (l : ListObj D P) : Prop := ∀ x ∈ l.flows, (x.2.ratePay?).isSome

/-- Year fraction times notional of the flow at a pay date. -/
def ListObj.weight (cal : Cal D P) (l : ListObj D P) (d : D) : ℝ :=
  match l.flows.get d with
  | some p => match p.ratePay? with
    | some q => (q.dayCount.getD cal.dayCount) q.start q.stop * q.amount
    | none => 0
  | none => 0

theorem contingent_affine (p : ContingentRatePay D P) (arg : ModelArg D) (c c' : ℝ) :
    (PayOff.contingentRate { p with fixedRate := some c' }).eval cal arg =
      (fun x => x + (c' - c) * ((p.dayCount.getD cal.dayCount) p.start p.stop * p.amount)) <$>
        (PayOff.contingentRate { p with fixedRate := some c }).eval cal arg := by
  simp only [PayOff.eval, ContingentRatePay.cashflow, RatePay.details]
  have : ∀ c, ({ p.toRatePay with fixedRate := some c } : RatePay D P).forwardAt cal (.fwd arg.curve) =
    p.toRatePay.forwardAt cal (.fwd arg.curve) := fun _ => rfl
  simp only [this, RatePay.tau]
  cases p.toRatePay.forwardAt cal (.fwd arg.curve) with
  | error e => rfl
  | ok x =>
    simp only [Py.ok_bind]
    cases arg with
    | fwd f => simp only [Py.map_ok, Except.ok.injEq]; ring
    | model m =>
      simp only
      cases pyKey x.2 with
      | error e => rfl
      | ok fx =>
        simp only [Py.ok_bind]
        cases optlet cal m (m.putValue cal) fx (p.dayCount.getD cal.dayCount p.start p.stop * p.amount) p.floor with
        | error e => rfl
        | ok y =>
          simp only [Py.ok_bind]
          cases optlet cal m (m.callValue cal) fx (p.dayCount.getD cal.dayCount p.start p.stop * p.amount) p.cap with
          | error e => rfl
          | ok z => simp only [Py.ok_bind, Py.map_ok, Except.ok.injEq]; ring

theorem getitem_affine {w : World D P} {a : ℕ} (hr : (w.lists a).RateFlows) (v : Option D) (d : D) (c c' : ℝ) :
    (((w.withRate a (some c')).dated v a).list a).getitem cal d =
      (fun x => x + (c' - c) * (w.lists a).weight cal d) <$> (((w.withRate a (some c)).dated v a).list a).getitem cal d := by
  rw [World.withRate_dated, World.withRate_dated, World.withRate_list, World.withRate_list]
  simp only [CFList.getitem, CFList.setFixedRate, Dict.get_map, ListObj.weight]
  have hf : ((w.dated v a).list a).flows = (w.lists a).flows := by simp [World.list]
  rw [hf]
  cases hp : (w.lists a).flows.get d with
  | none => simp
  | some p =>
    have hs := hr _ (Dict.get_mem hp)
    simp only [Option.map_some]
    cases p with
    | rate q => exact C50_affine q _ c c'
    | contingentRate q => exact contingent_affine q _ c c'
    | num x => simp [PayOff.ratePay?] at hs
    | fixed x => simp [PayOff.ratePay?] at hs
    | option x => simp [PayOff.ratePay?] at hs
    | strategy x => simp [PayOff.ratePay?] at hs
    | fn x => simp [PayOff.ratePay?] at hs

/-- The valuation date used: the given one or the origin of the discount curve. -/
theorem pvOn_date {w : World D P} {disc : ℕ} {same : Bool} {vd : Option D} {v : D}
    (hv : vd.or (w.curves disc).base.origin = some v) (p : Product D) :
    pvOn cal disc same vd p w = pvOn cal disc (vd.isNone || same) (some v) p w := by
  unfold pvOn pv
  cases vd with
  | some u => cases hv; rfl
  | none =>
    simp only [Option.none_or] at hv
    simp [hv]

/-- C59: the present value of a list of rate flows (with or without caps and floors) is affine in the fixed rate; the slope
is the sum over the pay dates from the valuation date on of discount factor times year fraction times notional. -/
theorem C59_affine {w : World D P} {a disc : ℕ} {same : Bool} {vd : Option D} {v : D}
    (hv : vd.or (w.curves disc).base.origin = some v) (hr : (w.lists a).RateFlows) {c0 x0 : ℝ}
    {w' : World D P} (h : pvOn cal disc same vd (.list a) (w.withRate a (some c0)) = (.ok x0, w')) :
    ∃ df : D → ℝ, (∀ d ∈ (w.lists a).domain, v ≤ d →
        (w.curves disc).discountFactor cal (vd.isNone || same) v d = .ok (df d)) ∧
      ∀ c, pvOn cal disc same vd (.list a) (w.withRate a (some c)) =
        (.ok (x0 + (c - c0) * (((w.lists a).domain.filter (v ≤ ·)).map fun d => df d * (w.lists a).weight cal d).sum),
          w.withRate a (some c)) := by
  simp only [fun c => pvOn_date (w := w.withRate a c) (cal := cal) (same := same) (disc := disc) hv] at h ⊢
  generalize (vd.isNone || same) = same at h ⊢
  unfold pvOn at h ⊢
  have hl (c) : ((w.withRate a c).lists a).domain = (w.lists a).domain := by
    simp [World.withRate, World.setList, ListObj.setRate]
  have hp (c) (hm : ((w.withRate a c).lists a).Priceable) (c') : ((w.withRate a c').lists a).Priceable := by
    simpa [World.withRate, World.setList, ListObj.setRate, ListObj.Priceable] using hm
  obtain ⟨-, hm, df, fl, H, rfl⟩ := C54_sum.1 h
  rw [hl] at H
  refine ⟨df, fun d hd hv => (H d hd hv).1, fun c => C54_sum.2 ⟨rfl, hp _ hm _, df,
    fun d => fl d + (c - c0) * (w.lists a).weight cal d, ?_, ?_⟩⟩
  · rw [hl]
    intro d hd hv
    refine ⟨(H d hd hv).1, ?_⟩
    rw [getitem_affine hr (some v) d c0 c, (H d hd hv).2]
    rfl
  · rw [hl, hl]
    generalize (w.lists a).domain.filter (v ≤ ·) = T
    induction T with
    | nil => simp
    | cons t T ih =>
      simp only [List.map_cons, List.sum_cons] at ih ⊢
      linarith [ih]

/-- In terms of a function: `V c` is the present value with fixed rate `c`. -/
theorem fairErr_computes {w : World D P} {a disc : ℕ} {same : Bool} {vd : Option D} {V : ℝ → ℝ}
    (hV : ∀ c, pvOn cal disc same vd (.list a) (w.withRate a (some c)) = (.ok (V c), w.withRate a (some c))) (target : ℝ) :
    Computes (fun s => s = w ∨ ∃ r, s = w.withRate a r) (fun x s => s = w.withRate a (some x))
      (fairErr cal disc same vd target a) (fun c => V c - target) := by
  intro s hs x
  have hx : s.withRate a (some x) = w.withRate a (some x) := by
    rcases hs with rfl | ⟨r, rfl⟩
    · rfl
    · exact World.withRate_twice _ _ _ _
  refine ⟨w.withRate a (some x), ⟨.inr ⟨_, rfl⟩, rfl⟩, ?_⟩
  unfold fairErr
  rw [PyM.bind_ok (setRate_run s a (some x)), hx, PyM.bind_ok (hV x)]
  rfl

theorem getRate_run {w : World D P} {a : ℕ} (hf : (w.lists a).hasFixedRate = true) {r : Option ℝ}
    (hr : (w.list a).fixedRate = .ok r) : getRate a w = (.ok r, w) := by
  simp [getRate, hf, hr]

theorem rateFlows_get {w : World D P} {a : ℕ} (hr : (w.lists a).RateFlows) : ∃ rs, (w.list a).RatesAre rs := by
  have : ∀ fl : List (D × PayOff D P), (∀ x ∈ fl, (x.2.ratePay?).isSome) → ∃ rs : List (Option ℝ),
      List.Forall₂ (fun (x : D × PayOff D P) r => (∃ p, x.2 = .rate p ∧ p.fixedRate = r) ∨
        ∃ p, x.2 = .contingentRate p ∧ p.fixedRate = r) fl rs := by
    intro fl
    induction fl with
    | nil => intro _; exact ⟨[], .nil⟩
    | cons x fl ih =>
      intro h
      obtain ⟨rs, hrs⟩ := ih fun y hy => h y (by simp [hy])
      have hx := h x (by simp)
      obtain ⟨d, p⟩ := x
      cases p with
      | rate q => exact ⟨q.fixedRate :: rs, .cons (.inl ⟨q, rfl, rfl⟩) hrs⟩
      | contingentRate q => exact ⟨q.fixedRate :: rs, .cons (.inr ⟨q, rfl, rfl⟩) hrs⟩
      | _ => simp [PayOff.ratePay?] at hx
  exact this _ hr

/-- What `get_fair_rate` does on a list of rate flows. -/
theorem fairRate_run {w : World D P} {a disc : ℕ} {same : Bool} {vd : Option D} {V : ℝ → ℝ}
    (hf : (w.lists a).hasFixedRate = true) {rate : Option ℝ} (hrate : (w.list a).fixedRate = .ok rate)
    (hV : ∀ c, pvOn cal disc same vd (.list a) (w.withRate a (some c)) = (.ok (V c), w.withRate a (some c)))
    (limit : ℕ) (target precision lo hi : ℝ) :
    (∃ e s, fairRate cal limit disc same (.list a) vd target precision lo hi w = (.error e, s) ∧
        bracket precision limit (fairErr cal disc same vd target a) lo hi w = (.error e, s)) ∨
      (∃ r s, fairRate cal limit disc same (.list a) vd target precision lo hi w = (.ok r.2.1, w.withRate a rate) ∧
        bracket precision limit (fairErr cal disc same vd target a) lo hi w = (.ok r, s)) := by
  have hc := fairErr_computes hV target
  have hrun : fairRate cal limit disc same (.list a) vd target precision lo hi w = (do
      let r ← bracket precision limit (fairErr cal disc same vd target a) lo hi
      setRate a rate
      pure r.2.1 : PyM (World D P) ℝ) w := by
    simp only [fairRate]
    rw [PyM.bind_ok (getRate_run hf hrate)]
  rw [hrun]
  rcases hb : bracket precision limit (fairErr cal disc same vd target a) lo hi w with ⟨x, s⟩
  cases x with
  | error e => exact .inl ⟨e, s, PyM.bind_error hb, rfl⟩
  | ok r =>
    obtain ⟨a', m, b'⟩ := r
    have hI := (bracket_ok hc (.inl rfl) hb).choose_spec.2.2.2.2.2.1
    have hs : s.withRate a rate = w.withRate a rate := by
      rcases hI with rfl | ⟨r, rfl⟩
      · rfl
      · exact World.withRate_twice _ _ _ _
    refine .inr ⟨(a', m, b'), s, ?_, rfl⟩
    rw [PyM.bind_ok hb, PyM.bind_ok (setRate_run s a rate), hs]
    rfl

theorem mid_between {A B : ℝ} {a b m t p : ℝ} (hm : m = (a + b) / 2) (ha : |B + a * A - t| < p) (hb : |B + b * A - t| < p) :
    |B + m * A - t| < p := by
  rw [abs_lt] at *
  subst hm
  constructor <;> linarith [ha.1, ha.2, hb.1, hb.2]

/-- C59: with the returned rate as fixed rate the present value misses the requested one by less than the precision, and a
rate that meets it exactly is within half the precision of the returned one. -/
theorem C59_reprices {w w' : World D P} {a disc : ℕ} {same : Bool} {vd : Option D} {v : D}
    (hv : vd.or (w.curves disc).base.origin = some v) (hf : (w.lists a).hasFixedRate = true)
    (hr : (w.lists a).RateFlows) {c0 x0 : ℝ} {w0 : World D P}
    (h0 : pvOn cal disc same vd (.list a) (w.withRate a (some c0)) = (.ok x0, w0))
    {limit : ℕ} {target precision lo hi r : ℝ}
    (h : fairRate cal limit disc same (.list a) vd target precision lo hi w = (.ok r, w')) :
    (∃ x, pvOn cal disc same vd (.list a) (w.withRate a (some r)) = (.ok x, w.withRate a (some r)) ∧
      |x - target| < precision) ∧
    ∃ c ∈ Set.uIcc lo hi, |c - r| < precision / 2 ∧
      pvOn cal disc same vd (.list a) (w.withRate a (some c)) = (.ok target, w.withRate a (some c)) := by
  obtain ⟨df, -, hV⟩ := C59_affine hv hr h0
  set A := (((w.lists a).domain.filter (v ≤ ·)).map fun d => df d * (w.lists a).weight cal d).sum
  obtain ⟨rs, hrs⟩ := rateFlows_get hr
  obtain ⟨rate, hrate⟩ : ∃ rate, (w.list a).fixedRate = .ok rate := by
    rw [fixedRate_eq hrs]
    match rs.dedup with
    | [] => exact ⟨_, rfl⟩
    | [r] => exact ⟨_, rfl⟩
    | _ :: _ :: _ => exact ⟨_, rfl⟩
  have hc := fairErr_computes hV target
  rcases fairRate_run hf hrate hV limit target precision lo hi with ⟨e, s, h1, -⟩ | ⟨⟨a', m, b'⟩, s, h1, hb⟩
  · rw [h1] at h; simp at h
  · rw [h1] at h
    simp only [Prod.mk.injEq, Except.ok.injEq] at h
    obtain ⟨rfl, rfl⟩ := h
    obtain ⟨hm, -, -, -, -, -, -, ha, hb'⟩ := C56_result hc (.inl rfl) hb
    refine ⟨⟨_, hV m, ?_⟩, ?_⟩
    · have := mid_between (A := A) (B := x0 - c0 * A) (t := target) hm (by convert ha using 2; ring) (by convert hb' using 2; ring)
      convert this using 2
      ring
    · obtain ⟨c, hcm, hc0, hcr⟩ := C56_root hc (.inl rfl) (by fun_prop) hb
      refine ⟨c, hcm, hcr, ?_⟩
      rw [hV c]
      have : x0 + (c - c0) * A = target := by linarith
      rw [this]

/-- C59: if all flows have the same fixed rate the product is unchanged after the call. -/
theorem C59_unchanged {w w' : World D P} {a disc : ℕ} {same : Bool} {vd : Option D} {v : D}
    (hv : vd.or (w.curves disc).base.origin = some v) (hf : (w.lists a).hasFixedRate = true) {rate : Option ℝ}
    (hr : ∀ x ∈ (w.lists a).flows, ∃ q, x.2.ratePay? = some q ∧ q.fixedRate = rate) {c0 x0 : ℝ} {w0 : World D P}
    (h0 : pvOn cal disc same vd (.list a) (w.withRate a (some c0)) = (.ok x0, w0))
    {limit : ℕ} {target precision lo hi r : ℝ}
    (h : fairRate cal limit disc same (.list a) vd target precision lo hi w = (.ok r, w')) : w' = w := by
  have hrf : (w.lists a).RateFlows := fun x hx => by obtain ⟨q, h, -⟩ := hr x hx; rw [h]; rfl
  obtain ⟨df, -, hV⟩ := C59_affine hv hrf h0
  have hset (s : Option ℝ) (hs : (w.lists a).flows ≠ [] → s = rate) : w.withRate a s = w := by
    have hfl : ((w.lists a).flows.map fun p => (p.1, p.2.setFixedRate s)) = (w.lists a).flows := by
      conv_rhs => rw [← List.map_id (w.lists a).flows]
      apply List.map_congr_left
      intro x hx
      obtain ⟨q, h1, h2⟩ := hr x hx
      rw [hs (List.ne_nil_of_mem hx)]
      obtain ⟨d, p⟩ := x
      cases p with
      | rate p => simp only [PayOff.ratePay?, Option.some.injEq] at h1; subst h1; simp [PayOff.setFixedRate, ← h2]
      | contingentRate p =>
        simp only [PayOff.ratePay?, Option.some.injEq] at h1; subst h1; simp [PayOff.setFixedRate, ← h2]
      | _ => simp [PayOff.ratePay?] at h1
    simp only [World.withRate, ListObj.setRate, hfl]
    cases w
    simp [World.setList]
  obtain ⟨rs, hrs⟩ := rateFlows_get hrf
  have hrs' : ∀ x ∈ rs, x = rate := by
    have : ∀ (fl : List (D × PayOff D P)) (rs : List (Option ℝ)), (∀ x ∈ fl, ∃ q, x.2.ratePay? = some q ∧ q.fixedRate = rate) →
        List.Forall₂ (fun (x : D × PayOff D P) r => (∃ p, x.2 = .rate p ∧ p.fixedRate = r) ∨
          ∃ p, x.2 = .contingentRate p ∧ p.fixedRate = r) fl rs → ∀ x ∈ rs, x = rate := by
      intro fl rs h1 h2
      induction h2 with
      | nil => simp
      | @cons x r fl rs h3 h4 ih =>
        intro y hy
        rcases List.mem_cons.1 hy with rfl | hy
        · obtain ⟨q, e1, e2⟩ := h1 x (by simp)
          rcases h3 with ⟨p, e3, e4⟩ | ⟨p, e3, e4⟩ <;> rw [e3] at e1 <;> simp only [PayOff.ratePay?, Option.some.injEq] at e1 <;>
            rw [← e2, ← e1, e4]
        · exact ih (fun z hz => h1 z (by simp [hz])) y hy
    exact this _ _ hr hrs
  obtain ⟨s0, hs0, hs1⟩ : ∃ s, (w.list a).fixedRate = .ok s ∧ ((w.lists a).flows ≠ [] → s = rate) := by
    by_cases hne : rs = []
    · refine ⟨none, by rw [fixedRate_eq hrs, hne]; rfl, fun h => absurd ?_ h⟩
      rw [hne] at hrs
      exact List.forall₂_nil_right_iff.1 hrs
    · exact ⟨rate, C50_get hrs hne hrs', fun _ => rfl⟩
  rcases fairRate_run hf hs0 hV limit target precision lo hi with ⟨e, s, h1, -⟩ | ⟨r', s, h1, -⟩
  · rw [h1] at h; simp at h
  · rw [h1] at h
    simp only [Prod.mk.injEq] at h
    rw [← h.2, hset s0 hs1]

/-- C59 (what goes wrong): if two flows have different fixed rates, a call that returns leaves all of them at `None`. -/
theorem C59_mixed_violated {w w' : World D P} {a disc : ℕ} {same : Bool} {vd : Option D} {v : D}
    (hv : vd.or (w.curves disc).base.origin = some v) (hf : (w.lists a).hasFixedRate = true)
    (hr : (w.lists a).RateFlows) {x y : D × PayOff D P} {q q' : RatePay D P} (hx : x ∈ (w.lists a).flows)
    (hy : y ∈ (w.lists a).flows) (hq : x.2.ratePay? = some q) (hq' : y.2.ratePay? = some q') (hne : q.fixedRate ≠ q'.fixedRate)
    {c0 x0 : ℝ} {w0 : World D P} (h0 : pvOn cal disc same vd (.list a) (w.withRate a (some c0)) = (.ok x0, w0))
    {limit : ℕ} {target precision lo hi r : ℝ}
    (h : fairRate cal limit disc same (.list a) vd target precision lo hi w = (.ok r, w')) : w' = w.withRate a none := by
  obtain ⟨df, -, hV⟩ := C59_affine hv hr h0
  obtain ⟨rs, hrs⟩ := rateFlows_get hr
  have hmem : ∀ (z : D × PayOff D P) (p : RatePay D P), z ∈ (w.lists a).flows → z.2.ratePay? = some p → p.fixedRate ∈ rs := by
    intro z p hz hp
    obtain ⟨r, hr1, hr2⟩ := forall₂_mem hrs hz
    rcases hr2 with ⟨p', e, e'⟩ | ⟨p', e, e'⟩ <;> rw [e] at hp <;> simp only [PayOff.ratePay?, Option.some.injEq] at hp <;>
      rw [← hp, e'] <;> exact hr1
  have hg := C50_get_none hrs (hmem x q hx hq) (hmem y q' hy hq') hne
  rcases fairRate_run hf hg hV limit target precision lo hi with ⟨e, s, h1, -⟩ | ⟨r', s, h1, -⟩
  · rw [h1] at h; simp at h
  · rw [h1] at h
    simp only [Prod.mk.injEq] at h
    exact h.2.symm

/-- C59 (what goes wrong): … and then pricing the list raises if it has a flow from the valuation date on. -/
theorem C59_none_violated {w : World D P} {a disc : ℕ} {same : Bool} {vd : Option D} {v d : D}
    (hv : vd.or (w.curves disc).base.origin = some v) (hd : d ∈ (w.lists a).domain) (hvd : v ≤ d)
    {p : PayOff D P} {q : RatePay D P} (hp : (w.lists a).flows.get d = some p) (hq : p.ratePay? = some q) :
    ∃ e, (pvOn cal disc same vd (.list a) (w.withRate a none)).1 = .error e := by
  rw [pvOn_date (w := w.withRate a none) hv]
  rcases h : pvOn cal disc (vd.isNone || same) (some v) (.list a) (w.withRate a none) with ⟨x, s⟩
  cases x with
  | error e => exact ⟨e, rfl⟩
  | ok x =>
    exfalso
    obtain ⟨-, -, df, fl, H, -⟩ := C54_sum.1 h
    have := (H d (by simpa [World.withRate, World.setList, ListObj.setRate] using hd) hvd).2
    rw [World.withRate_dated, World.withRate_list] at this
    have hfl : ((w.dated (some v) a).list a).flows = (w.lists a).flows := by simp [World.list]
    simp only [CFList.getitem, CFList.setFixedRate, Dict.get_map, hfl, hp, Option.map_some] at this
    cases p with
    | rate q =>
      simp only [PayOff.setFixedRate, PayOff.eval, RatePay.details] at this
      cases hfa : ({ q with fixedRate := none } : RatePay D P).forwardAt cal ((w.dated (some v) a).list a).arg with
      | error e => rw [hfa] at this; cases this
      | ok y => rw [hfa] at this; cases this
    | contingentRate q =>
      simp only [PayOff.setFixedRate, PayOff.eval, ContingentRatePay.cashflow, RatePay.details] at this
      cases hfa : ({ q.toRatePay with fixedRate := none } : RatePay D P).forwardAt cal
          (.fwd ((w.dated (some v) a).list a).arg.curve) with
      | error e => rw [hfa] at this; cases this
      | ok y => rw [hfa] at this; cases this
    | _ => simp [PayOff.ratePay?] at hq

/-- C59 (what goes wrong): if the present values at both bounds are on the same side of the requested one, the call raises
`AssertionError` and leaves the upper bound as fixed rate of all flows. -/
theorem C59_refused_violated {w : World D P} {a disc : ℕ} {same : Bool} {vd : Option D} {v : D}
    (hv : vd.or (w.curves disc).base.origin = some v) (hf : (w.lists a).hasFixedRate = true)
    (hr : (w.lists a).RateFlows) {lo hi x y : ℝ} {w0 w1 : World D P}
    (hx : pvOn cal disc same vd (.list a) (w.withRate a (some lo)) = (.ok x, w0))
    (hy : pvOn cal disc same vd (.list a) (w.withRate a (some hi)) = (.ok y, w1))
    {limit : ℕ} (hl : limit ≠ 0) {target : ℝ} (precision : ℝ)
    (hside : (target < x ∧ target < y) ∨ (x < target ∧ y < target)) :
    fairRate cal limit disc same (.list a) vd target precision lo hi w = (.error .assertion, w.withRate a (some hi)) := by
  obtain ⟨df, -, hV⟩ := C59_affine hv hr hx
  set A := (((w.lists a).domain.filter (v ≤ ·)).map fun d => df d * (w.lists a).weight cal d).sum
  have hyV : x + (hi - lo) * A = y := by
    rw [hV hi] at hy; simpa using congrArg Prod.fst hy
  obtain ⟨rs, hrs⟩ := rateFlows_get hr
  obtain ⟨rate, hrate⟩ : ∃ rate, (w.list a).fixedRate = .ok rate := by
    rw [fixedRate_eq hrs]
    match rs.dedup with
    | [] => exact ⟨_, rfl⟩
    | [r] => exact ⟨_, rfl⟩
    | _ :: _ :: _ => exact ⟨_, rfl⟩
  have hc := fairErr_computes hV target
  obtain ⟨l, rfl⟩ := Nat.exists_eq_succ_of_ne_zero hl
  obtain ⟨s', hs', H⟩ := bracket_run precision l hc lo hi (s := w) (.inl rfl)
  have hpos : 0 < (x + (lo - lo) * A - target) * (x + (hi - lo) * A - target) := by
    rw [hyV]
    simp only [sub_self, zero_mul, add_zero]
    rw [mul_pos_iff]
    rcases hside with h | h
    · exact .inl ⟨by linarith [h.1], by linarith [h.2]⟩
    · exact .inr ⟨by linarith [h.1], by linarith [h.2]⟩
  rcases H with ⟨-, hj, e⟩ | ⟨hp, -⟩ | ⟨hp, -⟩
  · rcases fairRate_run hf hrate hV (l + 1) target precision lo hi with ⟨e', s, h1, h2⟩ | ⟨r', s, h1, h2⟩
    · rw [e] at h2
      simp only [Prod.mk.injEq, Except.error.injEq] at h2
      rw [h1, ← h2.1, ← h2.2, hj]
    · rw [e] at h2; simp at h2
  · exact absurd hpos hp.not_gt
  · exact absurd hpos hp.not_gt

/-- C59: a rate exists and is found if the present values at the bounds enclose the requested one. -/
theorem C59_exists {w : World D P} {a disc : ℕ} {same : Bool} {vd : Option D} {v : D}
    (hv : vd.or (w.curves disc).base.origin = some v) (hf : (w.lists a).hasFixedRate = true)
    (hr : (w.lists a).RateFlows) {lo hi x y : ℝ} {w0 w1 : World D P}
    (hx : pvOn cal disc same vd (.list a) (w.withRate a (some lo)) = (.ok x, w0))
    (hy : pvOn cal disc same vd (.list a) (w.withRate a (some hi)) = (.ok y, w1))
    {target precision : ℝ} (hp : 0 < precision) (hside : (x - target) * (y - target) ≤ 0) :
    ∃ n, ∀ limit, n < limit → ∃ r w', fairRate cal limit disc same (.list a) vd target precision lo hi w = (.ok r, w') := by
  obtain ⟨df, -, hV⟩ := C59_affine hv hr hx
  set A := (((w.lists a).domain.filter (v ≤ ·)).map fun d => df d * (w.lists a).weight cal d).sum
  have hyV : x + (hi - lo) * A = y := by
    rw [hV hi] at hy; simpa using congrArg Prod.fst hy
  obtain ⟨rs, hrs⟩ := rateFlows_get hr
  obtain ⟨rate, hrate⟩ : ∃ rate, (w.list a).fixedRate = .ok rate := by
    rw [fixedRate_eq hrs]
    match rs.dedup with
    | [] => exact ⟨_, rfl⟩
    | [r] => exact ⟨_, rfl⟩
    | _ :: _ :: _ => exact ⟨_, rfl⟩
  have hc := fairErr_computes hV target
  obtain ⟨n, hn⟩ := C57_continuous hc hp (s := w) (a := lo) (b := hi) (.inl rfl) (by fun_prop) (by
    simp only [sub_self, zero_mul, add_zero, hyV]; exact hside)
  refine ⟨n, fun limit hl => ?_⟩
  obtain ⟨a', m, b', s', h⟩ := hn limit hl
  rcases fairRate_run hf hrate hV limit target precision lo hi with ⟨e', s, h1, h2⟩ | ⟨r', s, h1, h2⟩
  · rw [h] at h2; simp at h2
  · exact ⟨_, _, h1⟩

/-- C59: leg lists have no fair rate. -/
theorem C59_legs (limit disc : ℕ) (same : Bool) (ps : List (Product D)) (d : List D) (o : Option D) (v : Option D)
    (target precision lo hi : ℝ) (w : World D P) :
    fairRate cal limit disc same (.legs ps d o) v target precision lo hi w = (.error .attribute, w) := rfl

end

/-! ### Examples -/

/-- Two yearly coupons on 100 without forward curve; rates are parameters. -/
noncomputable def exRates (r s : Option ℝ) : World ℝ FloatPeriod :=
  { exWorld with
    lists := Function.update exWorld.lists 0 ⟨some 0, [1, 2],
      .ofPairs [(1, .rate ⟨0, 1, 100, none, none, r⟩), (2, .rate ⟨1, 2, 100, none, none, s⟩)], .fwd fun _ => .none, false,
      true, true⟩ }

theorem exRates_pv (r s : Option ℝ) (c : ℝ) :
    pvOn floatCal 0 false (some 0) (.list 0) ((exRates r s).withRate 0 (some c)) =
      (.ok (c * 100 * (Real.exp (-(5 / 100)) + Real.exp (-(5 / 100 * 2)))), (exRates r s).withRate 0 (some c)) := by
  unfold pvOn
  refine C54_sum.2 ⟨rfl, fun h => absurd h (by simp [exRates, World.withRate, World.setList, ListObj.setRate]),
    fun t => Real.exp (-(5 / 100 * (t - 0))), fun _ => c * 100, ?_, ?_⟩
  · intro d hd _
    refine ⟨exDf 0 d, ?_⟩
    have hd' : d = 1 ∨ d = 2 := by simpa [exRates, World.withRate, World.setList, ListObj.setRate] using hd
    rw [World.withRate_dated, World.withRate_list]
    rcases hd' with rfl | rfl <;>
      simp [CFList.getitem, CFList.setFixedRate, World.dated, World.list, exRates, Dict.ofPairs, Dict.set, Dict.get,
        PayOff.setFixedRate, PayOff.eval, RatePay.details, RatePay.forwardAt, World.arg, ModelArg.truthy, Fwd.truthy,
        RatePay.tau, floatCal]
    norm_num
  · simp [exRates, World.withRate, World.setList, ListObj.setRate, List.filter]
    ring

theorem exRates_flows (r s : Option ℝ) : ((exRates r s).lists 0).flows =
    [(1, .rate ⟨0, 1, 100, none, none, r⟩), (2, .rate ⟨1, 2, 100, none, none, s⟩)] := by
  simp [exRates, Dict.ofPairs, Dict.set]

theorem exRates_side : ((-1 / 10) * 100 * (Real.exp (-(5 / 100)) + Real.exp (-(5 / 100 * 2))) - 5) *
    ((2 / 10) * 100 * (Real.exp (-(5 / 100)) + Real.exp (-(5 / 100 * 2))) - 5) ≤ 0 := by
  have h1 := Real.add_one_le_exp (-(5 / 100) : ℝ)
  have h2 := Real.exp_pos (-(5 / 100 * 2) : ℝ)
  apply mul_nonpos_of_nonpos_of_nonneg <;> linarith

/-- Non-vacuity: the fair rate of two equal coupons for the value 5 is found and nothing is changed. -/
example : ∃ n, ∀ limit, n < limit → ∃ r,
    fairRate floatCal limit 0 false (.list 0) (some 0) 5 (1 / 10000000) (-1 / 10) (2 / 10)
        (exRates (some (1 / 100)) (some (1 / 100))) = (.ok r, exRates (some (1 / 100)) (some (1 / 100))) ∧
    |r * 100 * (Real.exp (-(5 / 100)) + Real.exp (-(5 / 100 * 2))) - 5| < 1 / 10000000 := by
  have hr : ∀ x ∈ ((exRates (some (1 / 100)) (some (1 / 100))).lists 0).flows,
      ∃ q, x.2.ratePay? = some q ∧ q.fixedRate = some (1 / 100 : ℝ) := by
    rw [exRates_flows]; simp [PayOff.ratePay?]
  have hrf : ((exRates (some (1 / 100)) (some (1 / 100))).lists 0).RateFlows := fun x hx => by
    obtain ⟨q, h, -⟩ := hr x hx; rw [h]; rfl
  obtain ⟨n, hn⟩ := C59_exists (cal := floatCal) (v := 0) (vd := some 0) rfl rfl hrf (exRates_pv _ _ _) (exRates_pv _ _ _)
    (by norm_num : (0 : ℝ) < 1 / 10000000) exRates_side
  refine ⟨n, fun limit hl => ?_⟩
  obtain ⟨r, w', h⟩ := hn limit hl
  obtain rfl := C59_unchanged (cal := floatCal) (v := 0) (vd := some 0) rfl rfl hr (exRates_pv _ _ 0) h
  obtain ⟨⟨x, hx, hx'⟩, -⟩ := C59_reprices (cal := floatCal) (v := 0) (vd := some 0) rfl rfl hrf (exRates_pv _ _ 0) h
  rw [exRates_pv] at hx
  simp only [Prod.mk.injEq, Except.ok.injEq, and_true] at hx
  exact ⟨r, h, by rw [hx]; exact hx'⟩

/-- C59 (refuted): coupons of 1% and 2%; the call returns, afterwards no coupon has a rate and the list can not be
priced. -/
theorem C59_violated : ∃ n, ∀ limit, n < limit → ∃ r w' e,
    fairRate floatCal limit 0 false (.list 0) (some 0) 5 (1 / 10000000) (-1 / 10) (2 / 10)
        (exRates (some (1 / 100)) (some (2 / 100))) = (.ok r, w') ∧
    w' = exRates none none ∧ (pvOn floatCal 0 false (some 0) (.list 0) w').1 = .error e := by
  have hrf : ((exRates (some (1 / 100)) (some (2 / 100))).lists 0).RateFlows := by
    unfold ListObj.RateFlows
    rw [exRates_flows]; simp [PayOff.ratePay?]
  obtain ⟨n, hn⟩ := C59_exists (cal := floatCal) (v := 0) (vd := some 0) rfl rfl hrf (exRates_pv _ _ _) (exRates_pv _ _ _)
    (by norm_num : (0 : ℝ) < 1 / 10000000) exRates_side
  refine ⟨n, fun limit hl => ?_⟩
  obtain ⟨r, w', h⟩ := hn limit hl
  have hw := C59_mixed_violated (cal := floatCal) (v := 0) (vd := some 0) rfl rfl hrf
    (x := (1, .rate ⟨0, 1, 100, none, none, some (1 / 100)⟩)) (y := (2, .rate ⟨1, 2, 100, none, none, some (2 / 100)⟩))
    (by rw [exRates_flows]; simp) (by rw [exRates_flows]; simp) rfl rfl (by norm_num) (exRates_pv _ _ 0) h
  obtain ⟨e, he⟩ := C59_none_violated (cal := floatCal) (w := exRates (some (1 / 100)) (some (2 / 100))) (a := 0) (disc := 0)
    (same := false) (vd := some 0) (v := 0) (d := 1) rfl (by simp [exRates]) (by norm_num)
    (p := .rate ⟨0, 1, 100, none, none, some (1 / 100)⟩) (by rw [exRates_flows]; simp [Dict.get]) rfl
  refine ⟨r, w', e, h, ?_, by rw [hw]; exact he⟩
  rw [hw]
  simp only [World.withRate, World.setList, ListObj.setRate, exRates_flows]
  simp [exRates, Dict.ofPairs, Dict.set, PayOff.setFixedRate]

/-! ### The hypotheses can be met: each theorem applied -/

theorem exRates_rateFlows (r s : Option ℝ) : ((exRates r s).lists 0).RateFlows := fun x hx => by
  rw [exRates_flows] at hx
  have hx' := List.mem_cons.1 hx
  rcases hx' with rfl | h
  · rfl
  · obtain rfl := List.mem_singleton.1 h; rfl

example := C59_affine (cal := floatCal) (w := exRates (some (1 / 100)) (some (2 / 100))) (vd := some 0) (v := 0) rfl
  (exRates_rateFlows _ _) (exRates_pv _ _ (3 / 100))
example := fun limit target precision lo hi r w' => C59_mixed_violated (cal := floatCal) (w := exRates (some (1 / 100)) (some (2 / 100)))
  (w' := w') (vd := some 0) (v := 0) rfl rfl (exRates_rateFlows _ _)
  (x := (1, .rate ⟨0, 1, 100, none, none, some (1 / 100)⟩)) (y := (2, .rate ⟨1, 2, 100, none, none, some (2 / 100)⟩))
  (by rw [exRates_flows]; simp) (by rw [exRates_flows]; simp) rfl rfl (by norm_num) (exRates_pv _ _ (3 / 100))
  (limit := limit) (target := target) (precision := precision) (lo := lo) (hi := hi) (r := r)
example := C59_none_violated (cal := floatCal) (w := exRates (some (1 / 100)) (some (2 / 100))) (a := 0) (disc := 0) (same := false)
  (vd := some 0) (v := 0) (d := 1) rfl (by simp [exRates]) (by norm_num) (p := .rate ⟨0, 1, 100, none, none, some (1 / 100)⟩)
  (by rw [exRates_flows]; simp [Dict.get]) rfl
example (limit : ℕ) (hl : limit ≠ 0) (precision : ℝ) :
    fairRate floatCal limit 0 false (.list 0) (some 0) 1000 precision (-1 / 10) (2 / 10) (exRates (some (1 / 100)) (some (1 / 100))) =
      (.error .assertion, (exRates (some (1 / 100)) (some (1 / 100))).withRate 0 (some (2 / 10))) := by
  refine C59_refused_violated (cal := floatCal) (vd := some 0) (v := 0) rfl rfl (exRates_rateFlows _ _) (exRates_pv _ _ _) (exRates_pv _ _ _) hl
    precision (.inr ⟨?_, ?_⟩)
  all_goals
    have h1 : Real.exp (-(5 / 100) : ℝ) ≤ 1 := Real.exp_le_one_iff.2 (by norm_num)
    have h2 : Real.exp (-(5 / 100 * 2) : ℝ) ≤ 1 := Real.exp_le_one_iff.2 (by norm_num)
    have h3 := Real.exp_pos (-(5 / 100) : ℝ)
    have h4 := Real.exp_pos (-(5 / 100 * 2) : ℝ)
    linarith

end Dcf
