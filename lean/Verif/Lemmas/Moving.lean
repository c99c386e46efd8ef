import Verif.Props.Session
import Mathlib.Order.Hom.Basic

/-! # Renaming dates: curves -/

set_option linter.unusedSectionVars false
set_option linter.unusedSimpArgs false
set_option linter.unusedVariables false

namespace Dcf

/-! ## Objects on other dates

`e` renames dates; every object is the one made with the renamed dates. -/

section
variable {D D' P α β : Type} [LinearOrder D] [LinearOrder D'] (e : D ≃o D')

/-- A function of a date on the renamed dates. -/
def moveFn (f : D → α) : D' → α := fun d => f (e.symm d)

/-- A function of two dates on the renamed dates. -/
def moveFn2 (f : D → D → α) : D' → D' → α := fun s t => f (e.symm s) (e.symm t)

@[simp] theorem moveFn_apply (f : D → α) (d : D) : moveFn e f (e d) = f d := by simp [moveFn]
@[simp] theorem moveFn2_apply (f : D → D → α) (s t : D) : moveFn2 e f (e s) (e t) = f s t := by simp [moveFn2]

/-- The date arithmetic on the renamed dates. -/
def Cal.move (cal : Cal D P) : Cal D' P where
  dayCount := moveFn2 e cal.dayCount
  add d p := e <$> cal.add (e.symm d) p
  sub d p := e <$> cal.sub (e.symm d) p
  oneDay := cal.oneDay
  threeMonths := cal.threeMonths
  oneYear := cal.oneYear
  tenYears := cal.tenYears
  falsy := moveFn e cal.falsy
  falsyPeriod := cal.falsyPeriod

def DayCountArg.move : DayCountArg D → DayCountArg D'
  | .default => .default
  | .func f r => .func (moveFn2 e f) (r.map (moveFn2 e))
  | .named r => .named (r.map (moveFn2 e))

def DateCurve.move (c : DateCurve D) : DateCurve D' where
  domain := c.domain.map e
  origin? := c.origin?.map e
  dc := c.dc.move e
  interp := c.interp
  dflt := c.dflt
  fixings := c.fixings.map fun p => (e p.1, p.2)
  func := c.func

def RateCurve.move (c : RateCurve D P) : RateCurve D' P where
  base := c.base.move e
  tenor := c.tenor
  spread := c.spread.map (moveFn e)

def IRCurve.move (c : IRCurve D P) : IRCurve D' P := ⟨c.toRateCurve.move e, c.cls⟩
def CRCurve.move (c : CRCurve D P) : CRCurve D' P := ⟨c.toRateCurve.move e, c.cls⟩
def VolCurve.move (c : VolCurve D P) : VolCurve D' P := ⟨c.toRateCurve.move e, c.cls, c.floor⟩

variable {e} (cal : Cal D P)

@[simp] theorem move_dayCount (s t : D) : (cal.move e).dayCount (e s) (e t) = cal.dayCount s t := by simp [Cal.move]
@[simp] theorem move_add (d : D) (p : P) : (cal.move e).add (e d) p = e <$> cal.add d p := by simp [Cal.move]
@[simp] theorem move_sub (d : D) (p : P) : (cal.move e).sub (e d) p = e <$> cal.sub d p := by simp [Cal.move]
@[simp] theorem move_oneDay : (cal.move e).oneDay = cal.oneDay := rfl
@[simp] theorem move_threeMonths : (cal.move e).threeMonths = cal.threeMonths := rfl
@[simp] theorem move_oneYear : (cal.move e).oneYear = cal.oneYear := rfl
@[simp] theorem move_falsy (d : D) : (cal.move e).falsy (e d) = cal.falsy d := by simp [Cal.move]
@[simp] theorem move_falsyPeriod : (cal.move e).falsyPeriod = cal.falsyPeriod := rfl

theorem move_or (a b : Option D) : (cal.move e).or (a.map e) (b.map e) = (cal.or a b).map e := by
  cases a <;> simp [Cal.or]
  split <;> simp

theorem get_moved {γ : Type} (d : Dict D β) (f : β → γ) (x : D) :
    Dict.get (d.map fun p => (e p.1, f p.2)) (e x) = (d.get x).map f := by
  induction d with
  | nil => rfl
  | cons p d ih => simp only [List.map_cons, Dict.get, e.injective.eq_iff, ih]; split <;> simp

theorem set_moved {γ : Type} (d : Dict D β) (f : β → γ) (x : D) (y : β) :
    Dict.set (d.map fun p => (e p.1, f p.2)) (e x) (f y) = (d.set x y).map fun p => (e p.1, f p.2) := by
  induction d with
  | nil => rfl
  | cons p d ih => simp only [List.map_cons, Dict.set, e.injective.eq_iff, ih]; split <;> simp

theorem ofPairs_moved {γ : Type} (l : List (D × β)) (f : β → γ) :
    Dict.ofPairs (l.map fun p => (e p.1, f p.2)) = (Dict.ofPairs l).map fun p => (e p.1, f p.2) := by
  have h : ∀ d : Dict D β, (l.map fun p => (e p.1, f p.2)).foldl (fun d p => Dict.set d p.1 p.2)
      (d.map fun p => (e p.1, f p.2)) = (l.foldl (fun d p => Dict.set d p.1 p.2) d).map fun p => (e p.1, f p.2) := by
    induction l with
    | nil => intro d; rfl
    | cons p l ih => intro d; simp only [List.map_cons, List.foldl_cons, set_moved, ih]
  exact h []

theorem minDate_moved (l : List D) : minDate (l.map e) = e <$> minDate l := by
  cases l with
  | nil => rfl
  | cons a l =>
    have h : ∀ (l : List D) a, (l.map e).foldl min (e a) = e (l.foldl min a) := by
      intro l
      induction l with
      | nil => intro a; rfl
      | cons b l ih => intro a; simp only [List.map_cons, List.foldl_cons, ← ih, e.monotone.map_min]
    simp only [minDate, List.map_cons, List.min?_cons', h]; rfl

theorem maxDate_moved (l : List D) : maxDate (l.map e) = e <$> maxDate l := by
  cases l with
  | nil => rfl
  | cons a l =>
    have h : ∀ (l : List D) a, (l.map e).foldl max (e a) = e (l.foldl max a) := by
      intro l
      induction l with
      | nil => intro a; rfl
      | cons b l ih => intro a; simp only [List.map_cons, List.foldl_cons, ← ih, e.monotone.map_max]
    simp only [maxDate, List.map_cons, List.max?_cons', h]; rfl

theorem runWhile_moved {σ τ : Type} {cond : σ → Py Bool} {body : σ → Py σ} {cond' : τ → Py Bool} {body' : τ → Py τ}
    (m : σ → τ) (hc : ∀ s, cond' (m s) = cond s) (hb : ∀ s, body' (m s) = m <$> body s) (n : ℕ) (s : σ) :
    runWhile cond' body' n (m s) = (runWhile cond body n s).map fun x => m <$> x := by
  induction n generalizing s with
  | zero => rfl
  | succ n ih =>
    simp only [runWhile, hc, hb]
    rcases cond s with x | x
    · rfl
    · cases x
      · rfl
      · rcases body s with y | y
        · rfl
        · exact ih y

theorem pyWhile_moved {σ τ : Type} {cond : σ → Py Bool} {body : σ → Py σ} {cond' : τ → Py Bool} {body' : τ → Py τ}
    (m : σ → τ) (hc : ∀ s, cond' (m s) = cond s) (hb : ∀ s, body' (m s) = m <$> body s) (s : σ) :
    pyWhile cond' body' (m s) = m <$> pyWhile cond body s := by
  have h := fun n => runWhile_moved m hc hb n s
  by_cases hex : ∃ n r, runWhile cond body n s = some r
  · obtain ⟨n, r, hr⟩ := hex
    rw [pyWhile_of_run hr]
    exact pyWhile_of_run (n := n) (by rw [h, hr]; rfl)
  · have hex' : ¬ ∃ n r, runWhile cond' body' n (m s) = some r := by
      rintro ⟨n, r, hr⟩
      rw [h] at hr
      cases hn : runWhile cond body n s with
      | none => simp [hn] at hr
      | some x => exact hex ⟨n, x, hn⟩
    unfold pyWhile
    rw [dif_neg hex, dif_neg hex']
    rfl

/-! ## Curves -/

theorem pyDate_moved (o : Option D) : pyDate (o.map e) = e <$> pyDate o := by cases o <;> rfl

theorem dcEval_moved (dc : DayCountArg D) (s t : D) : (dc.move e).eval (cal.move e) (e s) (e t) = dc.eval cal s t := by
  cases dc with
  | default => simp [DayCountArg.move, DayCountArg.eval]
  | func f r => simp [DayCountArg.move, DayCountArg.eval]
  | named r => cases r <;> simp [DayCountArg.move, DayCountArg.eval]

theorem kwarg_moved (dc : DayCountArg D) : (dc.move e).kwarg = dc.kwarg.move e := by cases dc <;> rfl

theorem dcOr_moved (a b : DayCountArg D) : (a.move e).or (b.move e) = (a.or b).move e := by cases a <;> rfl

@[simp] theorem origin_moved (c : DateCurve D) : (c.move e).origin = c.origin.map e := by
  cases h : c.origin? <;> simp [DateCurve.origin, DateCurve.move, h]

@[simp] theorem dayCount_moved (c : DateCurve D) (s t : D) :
    (c.move e).dayCount (cal.move e) (e s) (e t) = c.dayCount cal s t := dcEval_moved cal c.dc s t

@[simp] theorem time_moved (c : DateCurve D) (x : D) : (c.move e).time (cal.move e) (e x) = c.time cal x := by
  simp only [DateCurve.time, origin_moved, pyDate_moved, bind_map_py, dayCount_moved]

@[simp] theorem call_moved (c : DateCurve D) (x : D) : (c.move e).call (cal.move e) (e x) = c.call cal x := by
  have h := get_moved (e := e) c.fixings (fun y : ℝ => y) x
  unfold DateCurve.call
  rw [time_moved]
  change (match Dict.get (c.fixings.map fun p => (e p.1, p.2)) (e x) with | some y => _ | none => _) = _
  rw [h]
  cases c.fixings.get x <;> rfl

theorem update_moved (c : DateCurve D) (domain : List D) (data : List ℝ) :
    (c.move e).update (cal.move e) (domain.map e) data = DateCurve.move e <$> c.update cal domain data := by
  unfold DateCurve.update
  rw [pyMap_map]
  simp only [time_moved, map_bind_py]
  rfl

theorem new_moved (domain : List D) (data : List ℝ) (interp : Option FuncSpec) (origin : Option D)
    (dc : DayCountArg D) (dflt : FuncSpec) :
    DateCurve.new (cal.move e) (domain.map e) data interp (origin.map e) (dc.move e) dflt =
      DateCurve.move e <$> DateCurve.new cal domain data interp origin dc dflt := by
  unfold DateCurve.new
  simp only [List.length_map]
  split_ifs
  · simp only [← update_moved]; rfl
  · rfl

@[simp] theorem rateCall_moved (c : RateCurve D P) (x : D) : (c.move e).call (cal.move e) (e x) = c.call cal x := by
  cases h : c.spread <;> simp [RateCurve.call, RateCurve.move, h]

theorem setPoint_moved (domain : List D) (data : List ℝ) (key : D) (value : ℝ) :
    setPoint (domain.map e) data (e key) value =
      ((setPoint domain data key value).1.map e, (setPoint domain data key value).2) := by
  have h : (domain.map e).idxOf (e key) = domain.idxOf key := by
    induction domain with
    | nil => rfl
    | cons a l ih =>
      by_cases hk : a = key
      · simp [hk]
      · rw [List.map_cons, List.idxOf_cons_ne _ (e.injective.ne hk), List.idxOf_cons_ne _ hk, ih]
  unfold setPoint
  rw [h]
  by_cases hk : key ∈ domain <;> simp [hk]

theorem setitemWith_moved (c : DateCurve D) {call : D → Py ℝ} {call' : D' → Py ℝ} (h : ∀ x, call' (e x) = call x)
    (key : D) (value : ℝ) :
    (c.move e).setitemWith (cal.move e) call' (e key) value = DateCurve.move e <$> c.setitemWith cal call key value := by
  unfold DateCurve.setitemWith
  have h1 : (c.move e).domain = c.domain.map e := rfl
  simp only [h1, pyMap_map, h, map_bind_py, setPoint_moved, update_moved]

theorem setitem_moved (c : RateCurve D P) (key : D) (value : ℝ) :
    (c.move e).setitem (cal.move e) (e key) value = RateCurve.move e <$> c.setitem cal key value := by
  unfold RateCurve.setitem
  have h1 : (c.move e).base = c.base.move e := rfl
  rw [h1, setitemWith_moved cal c.base (fun x => rateCall_moved cal c x), bind_map_py, map_bind_py]
  rfl

theorem stepLoop_moved (step : P) (stop : D) {update : ℝ → D → D → Py ℝ} {update' : ℝ → D' → D' → Py ℝ}
    (h : ∀ x s t, update' x (e s) (e t) = update x s t) (start : D) (acc : ℝ) :
    stepLoop (cal.move e) step (e stop) update' (e start) acc =
      (fun s : D × ℝ => (e s.1, s.2)) <$> stepLoop cal step stop update start acc := by
  unfold stepLoop
  refine pyWhile_moved (fun s : D × ℝ => (e s.1, s.2)) ?_ ?_ (start, acc)
  · rintro ⟨s, x⟩
    simp [bind_map_py]
  · rintro ⟨s, x⟩
    simp [bind_map_py, map_bind_py, h]

@[simp] theorem domain_moved (c : DateCurve D) : (c.move e).domain = c.domain.map e := rfl
@[simp] theorem base_moved (c : RateCurve D P) : (c.move e).base = c.base.move e := rfl
@[simp] theorem tenor_moved (c : RateCurve D P) : (c.move e).tenor = c.tenor := rfl
@[simp] theorem irRate_moved (c : IRCurve D P) : (c.move e).toRateCurve = c.toRateCurve.move e := rfl
@[simp] theorem irCls_moved (c : IRCurve D P) : (c.move e).cls = c.cls := rfl
@[simp] theorem irTenor_moved (c : IRCurve D P) : (c.move e).forwardTenor (cal.move e) = c.forwardTenor cal := rfl
@[simp] theorem crRate_moved (c : CRCurve D P) : (c.move e).toRateCurve = c.toRateCurve.move e := rfl
@[simp] theorem crCls_moved (c : CRCurve D P) : (c.move e).cls = c.cls := rfl
@[simp] theorem crTenor_moved (c : CRCurve D P) : (c.move e).forwardTenor (cal.move e) = c.forwardTenor cal := rfl
@[simp] theorem volRate_moved (c : VolCurve D P) : (c.move e).toRateCurve = c.toRateCurve.move e := rfl
@[simp] theorem volCls_moved (c : VolCurve D P) : (c.move e).cls = c.cls := rfl
@[simp] theorem volFloor_moved (c : VolCurve D P) : (c.move e).floor = c.floor := rfl

@[simp] theorem irCall_moved (c : IRCurve D P) (x : D) : (c.move e).call (cal.move e) (e x) = c.call cal x := by
  simp [IRCurve.call]
@[simp] theorem irDayCount_moved (c : IRCurve D P) (s t : D) :
    (c.move e).dayCount (cal.move e) (e s) (e t) = c.dayCount cal s t := by simp [IRCurve.dayCount]
@[simp] theorem crCall_moved (c : CRCurve D P) (x : D) : (c.move e).call (cal.move e) (e x) = c.call cal x := by
  simp [CRCurve.call]
@[simp] theorem crDayCount_moved (c : CRCurve D P) (s t : D) :
    (c.move e).dayCount (cal.move e) (e s) (e t) = c.dayCount cal s t := by simp [CRCurve.dayCount]
@[simp] theorem volCall_moved (c : VolCurve D P) (x : D) : (c.move e).call (cal.move e) (e x) = c.call cal x := by
  simp [VolCurve.call]
@[simp] theorem volDayCount_moved (c : VolCurve D P) (s t : D) :
    (c.move e).dayCount (cal.move e) (e s) (e t) = c.dayCount cal s t := by simp [VolCurve.dayCount]

theorem map_eq_some_moved (o : Option D) (x : D) : (o.map e = some (e x)) ↔ o = some x := by
  cases o <;> simp

theorem some_eq_map_moved (o : Option D) (x : D) : (some (e x) = o.map e) ↔ some x = o := by
  cases o <;> simp

theorem filter_gt_moved (l : List D) (x : D) :
    (l.map e).filter (fun d => decide (e x < d)) = (l.filter fun d => decide (x < d)).map e := by
  rw [List.filter_map]; congr 1; apply List.filter_congr; simp

theorem filter_le_moved (l : List D) (x : D) :
    (l.map e).filter (fun d => decide (d ≤ e x)) = (l.filter fun d => decide (d ≤ x)).map e := by
  rw [List.filter_map]; congr 1; apply List.filter_congr; simp

theorem filter_ge_moved (l : List D) (x : D) :
    (l.map e).filter (fun d => decide (e x ≤ d)) = (l.filter fun d => decide (x ≤ d)).map e := by
  rw [List.filter_map]; congr 1; apply List.filter_congr; simp

theorem ite_map_moved (p : Prop) [Decidable p] (a b : Py D) :
    (if p then e <$> a else e <$> b) = e <$> (if p then a else b) := by split_ifs <;> rfl

theorem discountFactorOf_moved (c : IRCurve D P) (same : Bool) (s t : D) :
    (c.move e).discountFactorOf (cal.move e) same (e s) (e t) = c.discountFactorOf cal same s t := by
  simp [IRCurve.discountFactorOf]

theorem discountRateOf_moved (c : IRCurve D P) (same : Bool) (s t : D) :
    (c.move e).discountRateOf (cal.move e) same (e s) (e t) = c.discountRateOf cal same s t := by
  unfold IRCurve.discountRateOf
  simp only [irRate_moved, base_moved, origin_moved, map_eq_some_moved, domain_moved, filter_gt_moved, minDate_moved,
    e.injective.eq_iff, move_oneDay, move_add]
  simp only [Py.ok_bind, bind_map_py, e.injective.eq_iff, discountFactorOf_moved, irDayCount_moved]

theorem zeroForward_moved (c : IRCurve D P) (s t : D) :
    (c.move e).zeroForward (cal.move e) (e s) (e t) = c.zeroForward cal s t := by
  unfold IRCurve.zeroForward
  simp only [irRate_moved, base_moved, origin_moved, pyDate_moved, bind_map_py, irCall_moved, irDayCount_moved]

theorem zeroRateOf_moved (c : IRCurve D P) (same : Bool) (s t : D) :
    (c.move e).zeroRateOf (cal.move e) same (e s) (e t) = c.zeroRateOf cal same s t := by
  unfold IRCurve.zeroRateOf
  simp only [irRate_moved, base_moved, origin_moved, map_eq_some_moved, e.injective.eq_iff, move_oneDay, move_add,
    bind_map_py, zeroForward_moved, irCall_moved]

theorem shortRateOf_moved (c : IRCurve D P) (s t : D) :
    (c.move e).shortRateOf (cal.move e) (e s) (e t) = c.shortRateOf cal s t := by
  unfold IRCurve.shortRateOf
  rw [move_oneDay, stepLoop_moved cal cal.oneDay t (update := fun rate current next => do
      let r ← c.call cal current
      let t ← c.dayCount cal current next
      .ok (rate + r * t)) (by simp)]
  simp only [e.injective.eq_iff, bind_map_py, irCall_moved, irDayCount_moved]

theorem cashRateOf_moved (c : IRCurve D P) (s t : D) :
    (c.move e).cashRateOf (cal.move e) (e s) (e t) = c.cashRateOf cal s t := by
  unfold IRCurve.cashRateOf
  rw [irTenor_moved, stepLoop_moved cal (c.forwardTenor cal) t (update := fun df current next => do
      let dc ← c.dayCount cal current next
      let r ← c.call cal current
      let x ← simpleCompounding r dc
      .ok (df * x)) (by simp)]
  simp only [e.injective.eq_iff, bind_map_py, irCall_moved, irDayCount_moved]

@[simp] theorem irRateOf_moved (c : IRCurve D P) (same : Bool) (s t : D) :
    (c.move e).rate (cal.move e) same (e s) (e t) = c.rate cal same s t := by
  unfold IRCurve.rate
  rw [irCls_moved]
  cases c.cls
  · exact discountRateOf_moved cal c same s t
  · exact zeroRateOf_moved cal c same s t
  · exact shortRateOf_moved cal c s t
  · exact cashRateOf_moved cal c s t

@[simp] theorem irFactor_moved (c : IRCurve D P) (same : Bool) (s t : D) :
    (c.move e).factor (cal.move e) same (e s) (e t) = c.factor cal same s t := by
  unfold IRCurve.factor
  simp only [irCls_moved, discountFactorOf_moved, e.injective.eq_iff, irRateOf_moved, irDayCount_moved]

@[simp] theorem irDiscount_moved (c : IRCurve D P) (t : D) :
    (c.move e).discount (cal.move e) (e t) = c.discount cal t := by
  unfold IRCurve.discount
  simp only [irRate_moved, base_moved, origin_moved, pyDate_moved, bind_map_py, irFactor_moved]

@[simp] theorem irZero_moved (c : IRCurve D P) (t : D) : (c.move e).zero (cal.move e) (e t) = c.zero cal t := by
  unfold IRCurve.zero
  simp only [irRate_moved, base_moved, origin_moved, pyDate_moved, bind_map_py, irRateOf_moved]

@[simp] theorem irShortRate_moved (c : IRCurve D P) (same : Bool) (limit : ℕ) (s : D) :
    (c.move e).shortRate (cal.move e) same limit (e s) = c.shortRate cal same limit s := by
  induction limit generalizing s with
  | zero => rfl
  | succ limit ih =>
    unfold IRCurve.shortRate
    simp only [irCls_moved, irCall_moved, irRate_moved, base_moved, domain_moved, minDate_moved, maxDate_moved,
      bind_map_py, filter_gt_moved, filter_le_moved, e.lt_iff_lt, e.le_iff_le, move_oneDay, move_sub, ih, irRateOf_moved]

theorem cashStop_moved (c : IRCurve D P) (s : D) (t : Option D) (p : Option P) :
    (c.move e).cashStop (cal.move e) (e s) (t.map e) p = e <$> c.cashStop cal s t p := by
  cases t with
  | none => cases p <;> simp [IRCurve.cashStop]
  | some t =>
    cases p with
    | none => simp [IRCurve.cashStop]
    | some p =>
      simp only [IRCurve.cashStop, Option.map_some, move_falsy, move_falsyPeriod, move_add]
      split_ifs
      · simp only [bind_map_py, map_bind_py, e.injective.eq_iff]
        refine bind_congr fun x => ?_
        split_ifs <;> rfl
      · rfl

@[simp] theorem irCashRate_moved (c : IRCurve D P) (same : Bool) (limit : ℕ) (s : D) (t : Option D) (p : Option P) :
    (c.move e).cashRate (cal.move e) same limit (e s) (t.map e) p = c.cashRate cal same limit s t p := by
  induction limit generalizing s t p with
  | zero => rfl
  | succ limit ih =>
    unfold IRCurve.cashRate
    have ih' := fun s t => ih s (some t) none
    simp only [Option.map_some] at ih'
    simp only [cashStop_moved, bind_map_py, irCls_moved, irTenor_moved, move_add, e.injective.eq_iff, irCall_moved,
      irFactor_moved, irDayCount_moved, ih']

@[simp] theorem irAnnuity_moved (c : IRCurve D P) (ds : List D) :
    (c.move e).swapAnnuity (cal.move e) (ds.map e) = c.swapAnnuity cal ds := by
  unfold IRCurve.swapAnnuity
  rw [← List.map_dropLast, List.zip_map, pyMap_map]
  simp only [Prod.map_fst, Prod.map_snd, irDiscount_moved, irDayCount_moved]

theorem irNew_moved (cls : IRClass) (domain : List D) (data : List ℝ) (interp : Option FuncSpec) (origin : Option D)
    (dc : DayCountArg D) (tenor : Option P) :
    IRCurve.new (cal.move e) cls (domain.map e) data interp (origin.map e) (dc.move e) tenor =
      IRCurve.move e <$> IRCurve.new cal cls domain data interp origin dc tenor := by
  unfold IRCurve.new
  rw [new_moved, bind_map_py, map_bind_py]
  rfl

theorem irStorage_moved (cls : IRClass) (limit : ℕ) (same : D → Bool) (c : IRCurve D P) (x : D) :
    cls.storage (cal.move e) limit (moveFn e same) (c.move e) (e x) = cls.storage cal limit same c x := by
  have h := irCashRate_moved (e := e) cal c (same x) limit x none none
  simp only [Option.map_none] at h
  cases cls <;> simp [IRClass.storage, h]

theorem irCastOn_moved (cls : IRClass) (limit : ℕ) (same : D → Bool) (domain : List D) (c : IRCurve D P)
    (interp : Option FuncSpec) (origin : Option D) (dc : DayCountArg D) (tenor : Option P) :
    IRCurve.castOn (cal.move e) cls limit (moveFn e same) (domain.map e) (c.move e) interp (origin.map e) (dc.move e) tenor =
      IRCurve.move e <$> IRCurve.castOn cal cls limit same domain c interp origin dc tenor := by
  unfold IRCurve.castOn
  rw [pyMap_map]
  have h1 : (c.move e).base.origin? = c.base.origin?.map e := rfl
  have h2 : (c.move e).base.dc = c.base.dc.move e := rfl
  simp only [irStorage_moved, h1, h2, move_or, kwarg_moved, dcOr_moved, irNew_moved, map_bind_py]

/-! ### Credit curves -/

theorem survivalFactorOf_moved (c : CRCurve D P) (same : Bool) (s t : D) :
    (c.move e).survivalFactorOf (cal.move e) same (e s) (e t) = c.survivalFactorOf cal same s t := by
  unfold CRCurve.survivalFactorOf
  simp only [crCall_moved, e.injective.eq_iff]

theorem marginalFactorOf_moved (c : CRCurve D P) (s t : D) :
    (c.move e).marginalFactorOf (cal.move e) (e s) (e t) = c.marginalFactorOf cal s t := by
  unfold CRCurve.marginalFactorOf
  rw [crTenor_moved, stepLoop_moved cal (c.forwardTenor cal) t (update := fun df current _ => do
      let y ← c.call cal current
      .ok (df * if 2 * floatMin ≤ y then y else 0)) (by simp)]
  simp only [e.injective.eq_iff, bind_map_py, crCall_moved, crDayCount_moved, move_add]

theorem rateStop_moved (c : CRCurve D P) (s t : D) :
    (c.move e).rateStop (cal.move e) (e s) (e t) = e <$> c.rateStop cal s t := by
  unfold CRCurve.rateStop
  simp only [crCls_moved, crRate_moved, base_moved, origin_moved, map_eq_some_moved, domain_moved, filter_gt_moved,
    minDate_moved, e.injective.eq_iff, move_oneDay, move_add]
  have h1 : ∀ (p : Prop) [Decidable p] (a b : Py D), (e <$> (if p then a else b)) =
    if p then e <$> a else e <$> b := by intro p _ a b; split_ifs <;> rfl
  simp only [Py.ok_bind, bind_map_py, e.injective.eq_iff, h1, Py.throw_eq, map_bind_py, Py.map_ok, Py.error_bind, Py.map_error]

theorem flatRateOf_moved (c : CRCurve D P) (same : Bool) (s t : D) :
    (c.move e).flatRateOf (cal.move e) same (e s) (e t) = c.flatRateOf cal same s t := by
  unfold CRCurve.flatRateOf
  simp only [crRate_moved, base_moved, origin_moved, map_eq_some_moved, e.injective.eq_iff, pyDate_moved, bind_map_py,
    crCall_moved, crDayCount_moved]

theorem hazardRateOf_moved (c : CRCurve D P) (s t : D) :
    (c.move e).hazardRateOf (cal.move e) (e s) (e t) = c.hazardRateOf cal s t := by
  unfold CRCurve.hazardRateOf
  rw [move_oneDay, stepLoop_moved cal cal.oneDay t (update := fun rate current next => do
      let r ← c.call cal current
      let t ← c.dayCount cal current next
      .ok (rate + r * t)) (by simp)]
  simp only [e.injective.eq_iff, bind_map_py, crCall_moved, crDayCount_moved]

@[simp] theorem crRateOf_moved (c : CRCurve D P) (same : Bool) (s t : D) :
    (c.move e).rate (cal.move e) same (e s) (e t) = c.rate cal same s t := by
  unfold CRCurve.rate
  simp only [crCls_moved, rateStop_moved, bind_map_py, survivalFactorOf_moved, crDayCount_moved, flatRateOf_moved,
    hazardRateOf_moved, marginalFactorOf_moved]

@[simp] theorem crFactor_moved (c : CRCurve D P) (same : Bool) (s t : D) :
    (c.move e).factor (cal.move e) same (e s) (e t) = c.factor cal same s t := by
  unfold CRCurve.factor
  simp only [crCls_moved, survivalFactorOf_moved, marginalFactorOf_moved, e.injective.eq_iff, crRateOf_moved,
    crDayCount_moved]

@[simp] theorem crSurvival_moved (c : CRCurve D P) (t : D) :
    (c.move e).survivalProb (cal.move e) (e t) = c.survivalProb cal t := by
  unfold CRCurve.survivalProb
  simp only [crRate_moved, base_moved, origin_moved, pyDate_moved, bind_map_py, crFactor_moved]

@[simp] theorem crFlat_moved (c : CRCurve D P) (t : D) :
    (c.move e).flatIntensity (cal.move e) (e t) = c.flatIntensity cal t := by
  unfold CRCurve.flatIntensity
  simp only [crRate_moved, base_moved, origin_moved, pyDate_moved, bind_map_py, crRateOf_moved]

@[simp] theorem crHazard_moved (c : CRCurve D P) (same : Bool) (limit : ℕ) (s : D) :
    (c.move e).hazardRate (cal.move e) same limit (e s) = c.hazardRate cal same limit s := by
  induction limit generalizing s with
  | zero => rfl
  | succ limit ih =>
    unfold CRCurve.hazardRate
    simp only [crCls_moved, crCall_moved, crRate_moved, base_moved, domain_moved, minDate_moved, maxDate_moved,
      bind_map_py, filter_gt_moved, filter_le_moved, e.lt_iff_lt, e.le_iff_le, move_oneDay, move_sub, move_add, ih,
      crRateOf_moved]

theorem crStorage_moved (cls : CRClass) (limit : ℕ) (same : D → Bool) (c : CRCurve D P) (x : D) :
    cls.storage (cal.move e) limit (moveFn e same) (c.move e) (e x) = cls.storage cal limit same c x := by
  cases cls <;> simp [CRClass.storage, bind_map_py]

theorem crMake_moved (cls : CRClass) (domain : List D) (data : List ℝ) (interp : Option FuncSpec) (origin : Option D)
    (dc : DayCountArg D) (tenor : Option P) :
    CRCurve.make (cal.move e) cls (domain.map e) data interp (origin.map e) (dc.move e) tenor =
      CRCurve.move e <$> CRCurve.make cal cls domain data interp origin dc tenor := by
  unfold CRCurve.make
  rw [new_moved, bind_map_py, map_bind_py]
  rfl

theorem crNew_moved (cls : CRClass) (domain : List D) (data : List ℝ) (interp : Option FuncSpec) (origin : Option D)
    (dc : DayCountArg D) (tenor : Option P) :
    CRCurve.new (cal.move e) cls (domain.map e) data interp (origin.map e) (dc.move e) tenor =
      CRCurve.move e <$> CRCurve.new cal cls domain data interp origin dc tenor := by
  unfold CRCurve.new
  dsimp only
  simp only [crMake_moved]
  split_ifs <;> rfl

theorem crCastOn_moved (cls : CRClass) (limit : ℕ) (same : D → Bool) (domain : List D) (c : CRCurve D P)
    (interp : Option FuncSpec) (origin : Option D) (dc : DayCountArg D) (tenor : Option P) :
    CRCurve.castOn (cal.move e) cls limit (moveFn e same) (domain.map e) (c.move e) interp (origin.map e) (dc.move e) tenor =
      CRCurve.move e <$> CRCurve.castOn cal cls limit same domain c interp origin dc tenor := by
  unfold CRCurve.castOn
  rw [pyMap_map]
  have h1 : (c.move e).base.origin? = c.base.origin?.map e := rfl
  have h2 : (c.move e).base.dc = c.base.dc.move e := rfl
  simp only [crStorage_moved, h1, h2, move_or, kwarg_moved, dcOr_moved, crMake_moved, map_bind_py]

/-! ### Volatility curves -/

theorem integrate_moved (scipy : Bool) (c : RateCurve D P) (s t : D) :
    (c.move e).integrate (cal.move e) scipy (e s) (e t) = c.integrate cal scipy s t := by
  unfold RateCurve.integrate
  rw [move_oneDay, stepLoop_moved cal cal.oneDay t (update := fun value current next => do
        let r ← c.call cal current
        let t ← c.base.dayCount cal current next
        .ok (value + r * t)) (by simp)]
  simp only [base_moved, time_moved, bind_map_py, rateCall_moved, dayCount_moved]
  rfl

theorem forwardVol_moved (c : VolCurve D P) (s t : D) :
    (c.move e).forwardVol (cal.move e) (e s) (e t) = c.forwardVol cal s t := by
  unfold VolCurve.forwardVol
  simp only [volRate_moved, base_moved, origin_moved, pyDate_moved, bind_map_py, volCall_moved, volDayCount_moved,
    volFloor_moved]
  rfl

@[simp] theorem terminalVolT_moved (c : VolCurve D P) (limit : ℕ) (s : D) (t : Option D) :
    (c.move e).terminalVolT (cal.move e) limit (e s) (t.map e) = c.terminalVolT cal limit s t := by
  induction limit generalizing s t with
  | zero => rfl
  | succ limit ih =>
    have ih' := fun s t => ih s (some t)
    simp only [Option.map_some] at ih'
    cases t with
    | none => simp [VolCurve.terminalVolT]
    | some t =>
      unfold VolCurve.terminalVolT
      simp only [Option.map_some, volRate_moved, base_moved, origin_moved, some_eq_map_moved, volCall_moved,
        e.injective.eq_iff, move_add, move_oneDay, bind_map_py, ih', gt_iff_lt, e.lt_iff_lt, forwardVol_moved]

theorem terminalVolI_moved (scipy : Bool) (c : VolCurve D P) (s : D) (t : Option D) :
    (c.move e).terminalVolI (cal.move e) scipy (e s) (t.map e) = c.terminalVolI cal scipy s t := by
  unfold VolCurve.terminalVolI
  cases t with
  | none =>
    simp only [Option.map_none, volRate_moved, base_moved, origin_moved, pyDate_moved, bind_map_py, volCall_moved,
      e.injective.eq_iff, gt_iff_lt, e.lt_iff_lt, integrate_moved]
  | some t =>
    simp only [Option.map_some, volRate_moved, volCall_moved, e.injective.eq_iff, gt_iff_lt, e.lt_iff_lt, integrate_moved]

theorem terminalVol_moved (scipy : Bool) (limit : ℕ) (c : VolCurve D P) (s : D) (t : Option D) :
    (c.move e).terminalVol (cal.move e) scipy limit (e s) (t.map e) = c.terminalVol cal scipy limit s t := by
  unfold VolCurve.terminalVol
  simp only [volCls_moved, terminalVolI_moved, terminalVolT_moved]

theorem instantaneousVol_moved (limit : ℕ) (c : VolCurve D P) (s : D) :
    (c.move e).instantaneousVol (cal.move e) limit (e s) = c.instantaneousVol cal limit s := by
  have h := fun s t => terminalVolT_moved (e := e) cal c limit s (some t)
  simp only [Option.map_some] at h
  unfold VolCurve.instantaneousVol
  simp only [volCls_moved, volCall_moved, move_add, move_oneDay, bind_map_py, h]

theorem volStorage_moved (cls : VolClass) (scipy : Bool) (limit : ℕ) (c : VolCurve D P) (x : D) :
    cls.storage (cal.move e) scipy limit (c.move e) (e x) = cls.storage cal scipy limit c x := by
  have h := terminalVol_moved (e := e) cal scipy limit c x none
  simp only [Option.map_none] at h
  cases cls
  · exact instantaneousVol_moved cal limit c x
  · exact h

end

end Dcf
