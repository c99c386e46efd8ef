import Verif.Lemmas.Moving

/-! # Renaming dates: payoffs, cashflow lists and pricing functions -/

set_option linter.unusedSectionVars false
set_option linter.unusedSimpArgs false
set_option linter.unusedVariables false

namespace Dcf

section
variable {D D' P α β : Type} [LinearOrder D] [LinearOrder D'] (e : D ≃o D')

def Fwd.move : Fwd D → Fwd D'
  | .none => .none
  | .num x => .num x
  | .price f c d => .price (moveFn e f) (moveFn e c) (moveFn2 e d)
  | .cash r d => .cash (moveFn e r) (moveFn2 e d)
  | .fn f => .fn (moveFn e f)

def Vol.move : Vol D → Vol D'
  | .none => .none
  | .num x => .num x
  | .terminal f d => .terminal (moveFn e f) (moveFn2 e d)
  | .fn f d => .fn (moveFn e f) (d.map (moveFn2 e))

def OptModel.move (m : OptModel D) : OptModel D' where
  valuation := m.valuation.map e
  forward := m.forward.move e
  vol := m.vol.move e
  dayCount := m.dayCount.map (moveFn2 e)
  bump := m.bump
  formula := m.formula

def ModelArg.move : ModelArg D → ModelArg D'
  | .fwd f => .fwd (f.move e)
  | .model m => .model (m.move e)

def RatePay.move (p : RatePay D P) : RatePay D' P where
  start := e p.start
  stop := e p.stop
  amount := p.amount
  dayCount := p.dayCount.map (moveFn2 e)
  fixingOffset := p.fixingOffset
  fixedRate := p.fixedRate

def OptPay.move (o : OptPay D) : OptPay D' := ⟨e o.expiry, o.amount, o.strike, o.isPut⟩

def ContingentRatePay.move (p : ContingentRatePay D P) : ContingentRatePay D' P :=
  ⟨p.toRatePay.move e, p.floor, p.cap⟩

/-- Other callables are called with the object on the old dates. -/
def PayOff.move : PayOff D P → PayOff D' P
  | .num x => .num x
  | .fixed x => .fixed x
  | .rate p => .rate (p.move e)
  | .contingentRate p => .contingentRate (p.move e)
  | .option o => .option (o.move e)
  | .strategy os => .strategy (os.map (OptPay.move e))
  | .fn f => .fn fun a => f (a.move e.symm)

def CFList.move (l : CFList D P) : CFList D' P where
  origin? := l.origin?.map e
  domain := l.domain.map e
  flows := l.flows.map fun p => (e p.1, p.2.move e)
  arg := l.arg.move e
  hasModel := l.hasModel

mutual
def CF.move : CF D P → CF D' P
  | .flat l => .flat (l.move e)
  | .legs cs d o => .legs (CF.moves cs) (d.map e) (o.map e)

def CF.moves : List (CF D P) → List (CF D' P)
  | [] => []
  | c :: cs => CF.move c :: CF.moves cs
end

def CurveObj.move (c : CurveObj D P) : CurveObj D' P := ⟨c.toRateCurve.move e, c.kind⟩

def ModelObj.move (m : ModelObj D P) : ModelObj D' P where
  valuation := m.valuation.map e
  forward cs := (m.forward fun a => (cs a).move e.symm).move e
  vol cs := (m.vol fun a => (cs a).move e.symm).move e
  dayCount := m.dayCount.map (moveFn2 e)
  bump := m.bump
  formula := m.formula

def ArgRef.move : ArgRef D P → ArgRef D' P
  | .fwd f => .fwd fun cs => (f fun a => (cs a).move e.symm).move e
  | .model a => .model a

def ListObj.move (l : ListObj D P) : ListObj D' P where
  origin? := l.origin?.map e
  domain := l.domain.map e
  flows := l.flows.map fun p => (e p.1, p.2.move e)
  arg := l.arg.move e
  hasModel := l.hasModel
  hasForward := l.hasForward
  hasFixedRate := l.hasFixedRate

def World.move (w : World D P) : World D' P where
  curves a := (w.curves a).move e
  models a := (w.models a).move e
  lists a := (w.lists a).move e

mutual
def Product.move : Product D → Product D'
  | .list a => .list a
  | .legs ps d o => .legs (Product.moves ps) (d.map e) (o.map e)

def Product.moves : List (Product D) → List (Product D')
  | [] => []
  | p :: ps => Product.move p :: Product.moves ps
end

theorem Product.moves_eq (ps : List (Product D)) : Product.moves e ps = ps.map (Product.move e) := by
  induction ps with
  | nil => rfl
  | cons p ps ih => simp [Product.moves, ih]

variable {e} (cal : Cal D P)

@[simp] theorem moveFn_back (f : D → α) : moveFn e.symm (moveFn e f) = f := by funext d; simp [moveFn]
@[simp] theorem moveFn2_back (f : D → D → α) : moveFn2 e.symm (moveFn2 e f) = f := by funext s t; simp [moveFn2]

@[simp] theorem map_back (o : Option D) : (o.map e).map e.symm = o := by cases o <;> simp

@[simp] theorem dcMove_back (o : Option (D → D → α)) : (o.map (moveFn2 e)).map (moveFn2 e.symm) = o := by cases o <;> simp

@[simp] theorem fwd_back (f : Fwd D) : (f.move e).move e.symm = f := by cases f <;> simp [Fwd.move]

@[simp] theorem vol_back (f : Vol D) : (f.move e).move e.symm = f := by
  cases f with
  | fn f d => cases d <;> simp [Vol.move]
  | _ => simp [Vol.move]

@[simp] theorem model_back (m : OptModel D) : (m.move e).move e.symm = m := by
  cases m; simp [OptModel.move, Function.comp_def]

@[simp] theorem arg_back (m : ModelArg D) : (m.move e).move e.symm = m := by
  cases m <;> simp [ModelArg.move]

theorem list_back (l : List D) : (l.map e).map e.symm = l := by simp [Function.comp_def]

theorem dcArg_back (d : DayCountArg D) : (d.move e).move e.symm = d := by
  cases d <;> simp [DayCountArg.move, Function.comp_def]

@[simp] theorem curve_back (c : CurveObj D P) : (c.move e).move e.symm = c := by
  rcases c with ⟨⟨⟨domain, origin, dc, interp, dflt, fixings, func⟩, tenor, spread⟩, kind⟩
  have h : spread.map (moveFn e.symm ∘ moveFn e) = spread := by cases spread <;> simp
  simp [CurveObj.move, RateCurve.move, DateCurve.move, dcArg_back, h, Function.comp_def]

/-! ## Payoffs -/

@[simp] theorem fwdTruthy_moved (f : Fwd D) : (f.move e).truthy = f.truthy := by cases f <;> rfl

theorem minus_moved (o : Option P) (d : D) : (cal.move e).minus o (e d) = e <$> cal.minus o d := by
  cases o with
  | none => rfl
  | some p =>
    unfold Cal.minus
    simp only [move_falsyPeriod, move_sub]
    split_ifs <;> rfl

@[simp] theorem fwdRate_moved (f : Fwd D) (d : D) : (f.move e).rate (e d) = f.rate d := by
  cases f <;> simp [Fwd.move, Fwd.rate]

@[simp] theorem optionForward_moved (f : Fwd D) (d : D) : (f.move e).optionForward (e d) = f.optionForward d := by
  unfold Fwd.optionForward
  rw [fwdTruthy_moved]
  cases f <;> simp [Fwd.move]

@[simp] theorem volEval_moved (f : Vol D) (d : D) : (f.move e).eval (e d) = f.eval d := by
  cases f <;> simp [Vol.move, Vol.eval]

theorem fwdDayCount_moved (f : Fwd D) : (f.move e).dayCount = f.dayCount.map (moveFn2 e) := by cases f <;> rfl
theorem volDc_moved (f : Vol D) : (f.move e).dayCount = f.dayCount.map (moveFn2 e) := by cases f <;> rfl

theorem modelTime_moved (m : OptModel D) (d : D) : (m.move e).time (cal.move e) (e d) = m.time cal d := by
  unfold OptModel.time
  simp only [OptModel.move, volDc_moved, fwdDayCount_moved]
  cases m.valuation with
  | none => rfl
  | some v =>
    cases m.dayCount with
    | some dc => simp
    | none =>
      cases m.vol.dayCount with
      | some dc => simp
      | none => cases m.forward.dayCount <;> simp

def OptDetails.move (e : D ≃o D') (d : OptDetails D) : OptDetails D' :=
  ⟨d.valuation.map e, d.fixing.map e, d.forward, d.strike, d.volatility, d.time⟩

theorem modelDetails_moved (m : OptModel D) (d : D) (k : Option ℝ) :
    (m.move e).details (cal.move e) (e d) k = OptDetails.move e <$> m.details cal d k := by
  unfold OptModel.details
  have h1 : (m.move e).forward = m.forward.move e := rfl
  have h2 : (m.move e).vol = m.vol.move e := rfl
  simp only [h1, h2, optionForward_moved, volEval_moved, modelTime_moved, map_bind_py, fwdTruthy_moved, Py.map_ok]
  refine bind_congr fun a => bind_congr fun b => bind_congr fun c => ?_
  simp only [OptDetails.move, OptModel.move]
  split_ifs <;> rfl

theorem detailsFwd_moved (d : OptDetails D) : (d.move e).fwd = d.fwd := rfl
theorem detailsFlat_moved (d : OptDetails D) : (d.move e).flat = d.flat := rfl

@[simp] theorem callValue_moved (m : OptModel D) (d : D) (k : Option ℝ) :
    (m.move e).callValue (cal.move e) (e d) k = m.callValue cal d k := by
  unfold OptModel.callValue
  rw [modelDetails_moved, bind_map_py]
  rfl

@[simp] theorem putValue_moved (m : OptModel D) (d : D) (k : Option ℝ) :
    (m.move e).putValue (cal.move e) (e d) k = m.putValue cal d k := by
  unfold OptModel.putValue
  rw [modelDetails_moved, bind_map_py]
  rfl

theorem tau_moved (p : RatePay D P) : (p.move e).tau (cal.move e) = moveFn2 e (p.tau cal) := by
  unfold RatePay.tau
  cases h : p.dayCount <;> simp [RatePay.move, h]
  rfl

theorem argCurve_moved (a : ModelArg D) : (a.move e).curve = a.curve.move e := by cases a <;> rfl
theorem argTruthy_moved (a : ModelArg D) : (a.move e).truthy = a.truthy := by cases a <;> simp [ModelArg.move, ModelArg.truthy]

theorem forwardAt_moved (p : RatePay D P) (a : ModelArg D) :
    (p.move e).forwardAt (cal.move e) (a.move e) = (fun q => (q.1, q.2.map e)) <$> p.forwardAt cal a := by
  unfold RatePay.forwardAt
  have h1 : (p.move e).start = e p.start := rfl
  have h2 : (p.move e).fixingOffset = p.fixingOffset := rfl
  simp only [argTruthy_moved, h1, h2, minus_moved, bind_map_py, argCurve_moved, fwdRate_moved]
  split_ifs
  · simp only [map_bind_py]; rfl
  · rfl

def RateDetails.move (e : D ≃o D') (d : RateDetails D) : RateDetails D' :=
  ⟨d.cashflow, d.notional, e d.start, e d.stop, d.yearFraction, d.forward, d.fixing.map e⟩

theorem rateDetails_moved (p : RatePay D P) (a : ModelArg D) :
    (p.move e).details (cal.move e) (a.move e) = RateDetails.move e <$> p.details cal a := by
  unfold RatePay.details
  have h1 : (p.move e).start = e p.start := rfl
  have h2 : (p.move e).stop = e p.stop := rfl
  have h3 : (p.move e).fixedRate = p.fixedRate := rfl
  have h4 : (p.move e).amount = p.amount := rfl
  simp only [tau_moved, h1, h2, h3, h4, moveFn2_apply, forwardAt_moved, bind_map_py, map_bind_py]
  refine bind_congr fun x => ?_
  cases p.fixedRate <;> rfl

theorem optCashflow_moved (o : OptPay D) (a : ModelArg D) :
    (o.move e).cashflow (cal.move e) (a.move e) = o.cashflow cal a := by
  cases a with
  | fwd f => simp [OptPay.cashflow, ModelArg.move]
  | model m =>
    simp only [OptPay.cashflow, ModelArg.move, OptPay.move, putValue_moved, callValue_moved, modelDetails_moved, bind_map_py]

theorem strategy_moved (os : List (OptPay D)) (a : ModelArg D) :
    strategyCashflow (cal.move e) (os.map (OptPay.move e)) (a.move e) = strategyCashflow cal os a := by
  unfold strategyCashflow
  rw [pyMap_map]
  simp only [optCashflow_moved]
  refine bind_congr fun x => ?_
  cases a with
  | fwd f => rfl
  | model m =>
    cases os with
    | nil => rfl
    | cons o os =>
      simp only [ModelArg.move, List.map_cons, OptPay.move, modelDetails_moved, bind_map_py]

theorem optlet_moved (m : OptModel D) {value : D → Option ℝ → Py ℝ} {value' : D' → Option ℝ → Py ℝ}
    (h : ∀ d k, value' (e d) k = value d k) (d : D) (x : ℝ) (k : Option ℝ) :
    optlet (cal.move e) (m.move e) value' (e d) x k = optlet cal m value d x k := by
  cases k <;> simp [optlet, modelDetails_moved, h, bind_map_py]

theorem pyKey_moved (o : Option D) : pyKey (o.map e) = e <$> pyKey o := by cases o <;> rfl

theorem contingent_moved (p : ContingentRatePay D P) (a : ModelArg D) :
    (p.move e).cashflow (cal.move e) (a.move e) = p.cashflow cal a := by
  unfold ContingentRatePay.cashflow
  have h1 : (p.move e).toRatePay = p.toRatePay.move e := rfl
  have h2 : (.fwd (a.move e).curve : ModelArg D') = (ModelArg.fwd a.curve).move e := by rw [argCurve_moved]; rfl
  rw [h1, h2, rateDetails_moved, bind_map_py]
  refine bind_congr fun x => ?_
  cases a with
  | fwd f => rfl
  | model m =>
    simp only [ModelArg.move, RateDetails.move, pyKey_moved, bind_map_py]
    refine bind_congr fun y => ?_
    rw [optlet_moved cal m (fun d k => putValue_moved cal m d k), optlet_moved cal m (fun d k => callValue_moved cal m d k)]
    rfl

@[simp] theorem eval_moved (p : PayOff D P) (a : ModelArg D) :
    (p.move e).eval (cal.move e) (a.move e) = p.eval cal a := by
  cases p with
  | num x => rfl
  | fixed x => rfl
  | rate p => simp only [PayOff.move, PayOff.eval, rateDetails_moved, bind_map_py]; rfl
  | contingentRate p => exact contingent_moved cal p a
  | option o => exact optCashflow_moved cal o a
  | strategy os => exact strategy_moved cal os a
  | fn f => simp [PayOff.move, PayOff.eval]

/-! ## Cashflow lists -/

@[simp] theorem getitem_moved (l : CFList D P) (d : D) : (l.move e).getitem (cal.move e) (e d) = l.getitem cal d := by
  unfold CFList.getitem
  have h : (l.move e).flows.get (e d) = (l.flows.get d).map (PayOff.move e) := get_moved l.flows (PayOff.move e) d
  rw [h]
  cases l.flows.get d with
  | none => rfl
  | some p => exact eval_moved cal p l.arg

@[simp] theorem getitems_moved (l : CFList D P) (ds : List D) :
    (l.move e).getitems (cal.move e) (ds.map e) = l.getitems cal ds := by
  simp [CFList.getitems, pyMap_map]

theorem setFixedRate_moved (v : Option ℝ) (p : PayOff D P) : (p.move e).setFixedRate v = (p.setFixedRate v).move e := by
  cases p <;> rfl

theorem payFixedRate_moved (p : PayOff D P) : (p.move e).fixedRate = p.fixedRate := by cases p <;> rfl

theorem fixedRate_moved (l : CFList D P) : (l.move e).fixedRate = l.fixedRate := by
  unfold CFList.fixedRate
  change (pyMap _ (l.flows.map _) >>= _) = _
  rw [pyMap_map]
  simp only [payFixedRate_moved]

theorem listOrigin_moved (l : CFList D P) : (l.move e).origin = l.origin.map e := by
  cases h : l.origin? <;> simp [CFList.origin, CFList.move, h]

/-! ## Worlds -/

theorem curvesBack (cs : Curves D P) : (fun a => ((cs a).move e).move e.symm) = cs := by funext a; simp

theorem worldModel_moved (w : World D P) (a : ℕ) : (w.move e).model a = (w.model a).move e := by
  simp only [World.model, World.move, ModelObj.move, OptModel.move, curve_back]

theorem worldArg_moved (w : World D P) (r : ArgRef D P) : (w.move e).arg (r.move e) = (w.arg r).move e := by
  cases r with
  | fwd f => simp only [World.arg, World.move, ArgRef.move, ModelArg.move, curve_back]
  | model a => simp only [World.arg, ArgRef.move, ModelArg.move, worldModel_moved]

theorem worldList_moved (w : World D P) (a : ℕ) : (w.move e).list a = (w.list a).move e := by
  have h := worldArg_moved (e := e) w (w.lists a).arg
  simp only [World.list, CFList.move]
  rw [← h]
  rfl

theorem CF.moves_eq (cs : List (CF D P)) : CF.moves e cs = cs.map (CF.move e) := by
  induction cs with
  | nil => rfl
  | cons c cs ih => simp [CF.moves, ih]

mutual
theorem worldProduct_moved (w : World D P) : ∀ p : Product D, (w.move e).product (p.move e) = (w.product p).move e
  | .list a => by simp only [Product.move, World.product, CF.move, worldList_moved]
  | .legs ps d o => by simp only [Product.move, World.product, CF.move, worldProducts_moved w ps]

theorem worldProducts_moved (w : World D P) : ∀ ps : List (Product D),
    (w.move e).products (Product.moves e ps) = CF.moves e (w.products ps)
  | [] => rfl
  | p :: ps => by simp only [Product.moves, World.products, CF.moves, worldProduct_moved w p, worldProducts_moved w ps]
end

theorem cfOrigin_moved (c : CF D P) : (c.move e).origin = c.origin.map e := by
  cases c with
  | flat l => exact listOrigin_moved l
  | legs cs d o => cases o <;> simp [CF.move, CF.origin]

theorem cfDomain_moved (c : CF D P) : (c.move e).domain = c.domain.map e := by cases c <;> rfl

theorem setCurve_moved (w : World D P) (a : ℕ) (c : CurveObj D P) :
    (w.move e).setCurve a (c.move e) = (w.setCurve a c).move e := by
  simp only [World.setCurve, World.move]
  congr 1
  funext b
  by_cases h : b = a
  · subst h; simp
  · simp [h]

theorem setValuation_moved (w : World D P) (a : ℕ) (v : Option D) :
    (w.move e).setValuation a (v.map e) = (w.setValuation a v).move e := by
  simp only [World.setValuation, World.move]
  congr 1
  funext b
  by_cases h : b = a
  · subst h; simp [ModelObj.move]
  · simp [h]

theorem setList_moved (w : World D P) (a : ℕ) (l : ListObj D P) :
    (w.move e).setList a (l.move e) = (w.setList a l).move e := by
  simp only [World.setList, World.move]
  congr 1
  funext b
  by_cases h : b = a
  · subst h; simp
  · simp [h]

/-! ## Computations with state -/

/-- `m'` does what `m` does, on renamed objects. -/
def Moves {σ τ α β : Type} (f : α → β) (g : σ → τ) (m : PyM σ α) (m' : PyM τ β) : Prop :=
  ∀ s, m' (g s) = (f <$> (m s).1, g (m s).2)

section
variable {σ τ α' β' : Type} {g : σ → τ} {f : α → β} {f' : α' → β'}

theorem Moves.bind {m : PyM σ α} {m' : PyM τ β} {k : α → PyM σ α'} {k' : β → PyM τ β'} (h : Moves f g m m')
    (hk : ∀ a, Moves f' g (k a) (k' (f a))) : Moves f' g (m >>= k) (m' >>= k') := by
  intro s
  rw [PyM.bind_run, PyM.bind_run, h s]
  rcases m s with ⟨x | x, t⟩
  · rfl
  · exact hk x t

theorem Moves.pure (a : α) : Moves f g (Pure.pure a : PyM σ α) (Pure.pure (f a) : PyM τ β) := fun _ => rfl

theorem Moves.pureId (a : α) : Moves id g (Pure.pure a : PyM σ α) (Pure.pure a : PyM τ α) := fun _ => rfl

theorem Moves.lift {x : Py α} {y : Py β} (h : y = f <$> x) : Moves f g (PyM.lift x) (PyM.lift y) := by
  intro s; rw [h]; rfl

theorem id_map_py (x : Py α) : id <$> x = x := by cases x <;> rfl

theorem Moves.liftId (x : Py α) : Moves id g (PyM.lift x : PyM σ α) (PyM.lift x : PyM τ α) := by
  intro s; simp [id_map_py]

theorem Moves.get : Moves g g (PyM.get : PyM σ σ) (PyM.get : PyM τ τ) := fun _ => rfl

theorem Moves.forM {γ δ : Type} {j : γ → δ} {k : γ → PyM σ Unit} {k' : δ → PyM τ Unit}
    (h : ∀ x, Moves id g (k x) (k' (j x))) (l : List γ) : Moves id g (PyM.forM k l) (PyM.forM k' (l.map j)) := by
  induction l with
  | nil => exact Moves.pureId ()
  | cons x l ih => exact (h x).bind fun _ => ih

theorem Moves.mapM {γ δ : Type} {j : γ → δ} {k : γ → PyM σ α} {k' : δ → PyM τ α}
    (h : ∀ x, Moves id g (k x) (k' (j x))) (l : List γ) : Moves id g (PyM.mapM k l) (PyM.mapM k' (l.map j)) := by
  induction l with
  | nil => exact Moves.pureId []
  | cons x l ih => exact (h x).bind fun _ => ih.bind fun _ => Moves.pureId _

theorem Moves.neg {k : ℝ → PyM σ ℝ} {k' : ℝ → PyM τ ℝ} (h : ∀ x, Moves id g (k x) (k' x)) (x : ℝ) :
    Moves id g (negFunc k x) (negFunc k' x) := (h x).bind fun _ => Moves.pureId _

theorem Moves.bracket (precision : ℝ) (limit : ℕ) {k : ℝ → PyM σ ℝ} {k' : ℝ → PyM τ ℝ}
    (h : ∀ x, Moves id g (k x) (k' x)) (a b : ℝ) :
    Moves id g (bracket precision limit k a b) (bracket precision limit k' a b) := by
  induction limit generalizing k k' a b with
  | zero => exact Moves.liftId _
  | succ limit ih =>
    unfold Dcf.bracket
    refine (h a).bind fun fa => (h b).bind fun fb => ?_
    simp only [id]
    have ho : ∀ x, Moves id g ((orient k fa fb).1 x) ((orient k' fa fb).1 x) := by
      intro x
      unfold orient
      split_ifs
      · exact Moves.neg h x
      · exact h x
    have h2 : (orient k' fa fb).2 = (orient k fa fb).2 := by unfold orient; split_ifs <;> rfl
    rw [h2]
    split_ifs
    · exact Moves.pureId _
    · exact (ho _).bind fun fm => ih ho _ _
    · exact Moves.liftId _

end

/-! ## Present value -/

theorem payDates_moved (v : Option D) (l : List D) : payDates (v.map e) (l.map e) = List.map e <$> payDates v l := by
  cases v with
  | none =>
    by_cases h : l = []
    · subst h; rfl
    · simp [payDates, h]
  | some v => simp only [payDates, Option.map_some, filter_ge_moved, Py.map_ok]

theorem ir?_moved (c : CurveObj D P) : (c.move e).ir? = c.ir?.map (IRCurve.move e) := by
  rcases c with ⟨c, kind⟩
  cases kind <;> rfl

@[simp] theorem objFactor_moved (c : CurveObj D P) (same : Bool) (s t : D) :
    (c.move e).discountFactor (cal.move e) same (e s) (e t) = c.discountFactor cal same s t := by
  unfold CurveObj.discountFactor
  rw [ir?_moved]
  cases c.ir? <;> simp

theorem discountSum_moved (c : CurveObj D P) (same : Bool) (v : Option D) (ds : List D) (xs : List ℝ) :
    discountSum (cal.move e) (c.move e) same (v.map e) ((ds.map e).zip xs) = discountSum cal c same v (ds.zip xs) := by
  have h : (ds.map e).zip xs = (ds.zip xs).map fun p => (e p.1, p.2) := by
    rw [List.zip_map_left]; rfl
  unfold discountSum
  rw [h, pyMap_map]
  simp only [pyDate_moved, bind_map_py, objFactor_moved]

abbrev moveSaved (e : D ≃o D') : Option (ℕ × Option D) → Option (ℕ × Option D') := Option.map fun p => (p.1, p.2.map e)

theorem enterModel_moved (v : Option D) (l : ListObj D P) :
    Moves (moveSaved e) (World.move e) (enterModel v l) (enterModel (v.map e) (l.move e)) := by
  intro w
  unfold enterModel
  have h1 : (l.move e).hasModel = l.hasModel := rfl
  have h2 : (l.move e).arg = l.arg.move e := rfl
  rw [h1, h2]
  split_ifs
  · cases l.arg with
    | fwd f => rfl
    | model m => simp only [ArgRef.move, setValuation_moved]; rfl
  · rfl

theorem leaveModel_moved (saved : Option (ℕ × Option D)) :
    Moves id (World.move e) (leaveModel (P := P) saved) (leaveModel (moveSaved e saved)) := by
  intro w
  cases saved with
  | none => rfl
  | some p => simp only [leaveModel, moveSaved, Option.map_some, setValuation_moved]; rfl

theorem pvList_moved (c : CurveObj D P) (same : Bool) (v : Option D) (a : ℕ) :
    Moves id (World.move e) (pvList cal c same v a) (pvList (cal.move e) (c.move e) same (v.map e) a) := by
  unfold pvList
  refine Moves.get.bind fun w => ?_
  refine (enterModel_moved v (w.lists a)).bind fun saved => ?_
  refine (Moves.lift (f := List.map e) (payDates_moved v (w.lists a).domain)).bind fun dates => ?_
  refine Moves.get.bind fun w' => ?_
  refine (Moves.lift (f := id) ?_).bind fun flows => ?_
  · rw [worldList_moved, getitems_moved, id_map_py]
  refine (leaveModel_moved saved).bind fun _ => ?_
  refine Moves.lift ?_
  rw [id, discountSum_moved, id_map_py]

mutual
theorem pvAt_moved (c : CurveObj D P) (same : Bool) (v : Option D) : ∀ p : Product D,
    Moves id (World.move e) (pvAt cal c same v p) (pvAt (cal.move e) (c.move e) same (v.map e) (p.move e))
  | .list a => by simpa only [pvAt, Product.move] using pvList_moved cal c same v a
  | .legs ps d o => by
    simp only [pvAt, Product.move]
    exact (pvLegs_moved c same v ps).bind fun _ => Moves.pureId _

theorem pvLegs_moved (c : CurveObj D P) (same : Bool) (v : Option D) : ∀ ps : List (Product D),
    Moves id (World.move e) (pvLegs cal c same v ps) (pvLegs (cal.move e) (c.move e) same (v.map e) (Product.moves e ps))
  | [] => by
    simp only [pvLegs, Product.moves]
    exact Moves.pureId []
  | p :: ps => by
    simp only [pvLegs, Product.moves]
    exact (pvAt_moved c same v p).bind fun _ => (pvLegs_moved c same v ps).bind fun _ => Moves.pureId _
end

theorem pv_moved (c : CurveObj D P) (same : Bool) (v : Option D) (p : Product D) :
    Moves id (World.move e) (pv cal c same v p) (pv (cal.move e) (c.move e) same (v.map e) (p.move e)) := by
  cases v with
  | some v => exact pvAt_moved cal c same (some v) p
  | none =>
    have h := pvAt_moved (e := e) cal c true c.base.origin p
    have h2 : (c.move e).base.origin = c.base.origin.map e := origin_moved c.base
    simp only [pv, Option.map_none]
    rw [h2]
    exact h

theorem pvOn_moved (a : ℕ) (same : Bool) (v : Option D) (p : Product D) :
    Moves id (World.move e) (pvOn cal a same v p) (pvOn (cal.move e) a same (v.map e) (p.move e)) :=
  fun w => pv_moved cal (w.curves a) same v p w

/-! ## The other functions -/

abbrev movePair (e : D ≃o D') : World D P × IRCurve D P → World D' P × IRCurve D' P := fun s => (s.1.move e, s.2.move e)

theorem ytmErr_moved (same : Bool) (v : D) (target : ℝ) (p : Product D) (x : ℝ) :
    Moves id (movePair e) (ytmErr cal same v target p x) (ytmErr (cal.move e) same (e v) target (p.move e) x) := by
  rintro ⟨w, c⟩
  unfold ytmErr
  simp only [irRate_moved, setitem_moved]
  cases hs : c.toRateCurve.setitem cal v x with
  | error err => rfl
  | ok rc =>
    have h := pv_moved (e := e) cal (IRCurve.obj ⟨rc, c.cls⟩) same (some v) p w
    simp only [Py.map_ok]
    change (match pv (cal.move e) ((IRCurve.obj ⟨rc, c.cls⟩).move e) same ((some v).map e) (p.move e) (w.move e) with
      | (.ok x, w) => _
      | (.error e, w) => _) = _
    rw [h]
    rcases pv cal (IRCurve.obj ⟨rc, c.cls⟩) same (some v) p w with ⟨y | y, w'⟩ <;> rfl

theorem ytm_moved (limit : ℕ) (same : Bool) (interp : Option FuncSpec) (origin : Option D) (dc : DayCountArg D)
    (tenor : Option P) (p : Product D) (v : Option D) (target precision lo hi : ℝ) :
    Moves id (World.move e) (ytm cal limit same interp origin dc tenor p v target precision lo hi)
      (ytm (cal.move e) limit same interp (origin.map e) (dc.move e) tenor (p.move e) (v.map e) target precision lo hi) := by
  intro w
  have ho : (v.map e).or ((p.move e).origin (w.move e)) = (v.or (p.origin w)).map e := by
    unfold Product.origin
    rw [worldProduct_moved, cfOrigin_moved]
    cases v <;> rfl
  unfold ytm
  rw [ho]
  cases v.or (p.origin w) with
  | none => rfl
  | some v =>
    simp only [Option.map_some]
    have hn := irNew_moved (e := e) cal .zero [v] [0] interp origin dc tenor
    simp only [List.map_cons, List.map_nil] at hn
    rw [hn]
    cases IRCurve.new cal .zero [v] [0] interp origin dc tenor with
    | error err => rfl
    | ok c =>
      have h := Moves.bracket (g := movePair e) precision limit (fun x => ytmErr_moved cal same v target p x) lo hi (w, c)
      simp only [Py.map_ok]
      change (match bracket precision limit _ lo hi (movePair e (w, c)) with | (.ok r, s) => _ | (.error e, s) => _) = _
      rw [h]
      rcases bracket precision limit (ytmErr cal same v target p) lo hi (w, c) with ⟨y | y, s⟩ <;> rfl

theorem ratePay?_moved (p : PayOff D P) : (p.move e).ratePay? = p.ratePay?.map (RatePay.move e) := by cases p <;> rfl

theorem accruedAt_moved (w : World D P) (l : ListObj D P) (v d : D) :
    accruedAt (cal.move e) (w.move e) (l.move e) (e v) (e d) = accruedAt cal w l v d := by
  unfold accruedAt
  have h : (l.move e).flows.get (e d) = (l.flows.get d).map (PayOff.move e) := get_moved l.flows (PayOff.move e) d
  rw [h]
  simp only [e.le_iff_le]
  split_ifs
  · cases l.flows.get d with
    | none => rfl
    | some cf =>
      simp only [Option.map_some]
      unfold accruedFlow
      rw [ratePay?_moved]
      cases cf.ratePay? with
      | none => rfl
      | some p =>
        have h1 : (p.move e).start = e p.start := rfl
        have h2 : (p.move e).stop = e p.stop := rfl
        have h3 : (w.move e).forwardCurve (l.move e) = ModelArg.move e <$> w.forwardCurve l := by
          unfold World.forwardCurve
          have h4 : (l.move e).hasForward = l.hasForward := rfl
          have h5 : (l.move e).arg = l.arg.move e := rfl
          rw [h4, h5, worldArg_moved]
          split_ifs <;> rfl
        simp only [Option.map_some, h1, h2, h3, e.lt_iff_lt, tau_moved, moveFn2_apply, bind_map_py, eval_moved]
  · rfl

mutual
theorem accrued_moved (w : World D P) (v : D) : ∀ p : Product D,
    accrued (cal.move e) (w.move e) (e v) (p.move e) = accrued cal w v p
  | .list a => by
    simp only [accrued, Product.move]
    change (do let l ← pyMap _ ((w.lists a).domain.map e); _) = _
    rw [pyMap_map]
    refine congrArg₂ _ (pyMap_congr fun d _ => accruedAt_moved cal w (w.lists a) v d) rfl
  | .legs ps d o => by simp only [accrued, Product.move, accruedLegs_moved w v ps]

theorem accruedLegs_moved (w : World D P) (v : D) : ∀ ps : List (Product D),
    accruedLegs (cal.move e) (w.move e) (e v) (Product.moves e ps) = accruedLegs cal w v ps
  | [] => by simp only [accruedLegs, Product.moves]
  | p :: ps => by simp only [accruedLegs, Product.moves, accrued_moved w v p, accruedLegs_moved w v ps]
end

theorem getRate_moved (a : ℕ) : Moves id (World.move e) (getRate (P := P) a) (getRate a) := by
  intro w
  unfold getRate
  have h1 : ((w.move e).lists a).hasFixedRate = (w.lists a).hasFixedRate := rfl
  rw [h1, worldList_moved, fixedRate_moved]
  split_ifs
  · simp only [id_map_py]
  · rfl

theorem setRate_moved (a : ℕ) (v : Option ℝ) : Moves id (World.move e) (setRate (P := P) a v) (setRate a v) := by
  intro w
  have h : ((w.move e).lists a).setRate v = ((w.lists a).setRate v).move e := by
    simp only [World.move, ListObj.setRate, ListObj.move, List.map_map, Function.comp_def, setFixedRate_moved]
  simp only [setRate, PyM.modify_run, h, setList_moved]
  rfl

theorem fairRate_moved (limit : ℕ) (disc : ℕ) (same : Bool) (p : Product D) (v : Option D) (target precision lo hi : ℝ) :
    Moves id (World.move e) (fairRate cal limit disc same p v target precision lo hi)
      (fairRate (cal.move e) limit disc same (p.move e) (v.map e) target precision lo hi) := by
  cases p with
  | legs ps d o => simp only [fairRate, Product.move]; exact Moves.liftId _
  | list a =>
    simp only [fairRate, Product.move]
    refine (getRate_moved a).bind fun rate => ?_
    refine (Moves.bracket precision limit (fun x => ?_) lo hi).bind fun r => (setRate_moved a rate).bind fun _ => Moves.pureId _
    unfold fairErr
    refine (setRate_moved a (some x)).bind fun _ => ?_
    have h := pvOn_moved (e := e) cal disc same v (.list a)
    simp only [Product.move] at h
    exact h.bind fun _ => Moves.pureId _

theorem setSpread_moved (a : ℕ) (f : Option (D → Py (Option ℝ))) :
    Moves id (World.move e) (setSpread (P := P) a f) (setSpread a (f.map (moveFn e))) := by
  intro w
  unfold setSpread
  have h : ((w.move e).curves a).toRateCurve.setSpread (f.map (moveFn e)) =
      RateCurve.move e <$> (w.curves a).toRateCurve.setSpread f := by
    unfold RateCurve.setSpread
    have h1 : (f.map (moveFn e)).isSome = f.isSome := by cases f <;> rfl
    have h2 : ((w.move e).curves a).spread.isSome = (w.curves a).spread.isSome := by
      simp only [World.move, CurveObj.move, RateCurve.move, Option.isSome_map]
    rw [h1, h2]
    split_ifs <;> rfl
  rw [h]
  cases (w.curves a).toRateCurve.setSpread f with
  | error err => rfl
  | ok rc =>
    have h3 := setCurve_moved (e := e) w a ⟨rc, (w.curves a).kind⟩
    simp only [Py.map_ok]
    exact congrArg (Prod.mk _) h3

theorem asSpread_moved (s : DateCurve D) : (s.move e).asSpread (cal.move e) = moveFn e (s.asSpread cal) := by
  funext d
  obtain ⟨x, rfl⟩ := e.surjective d
  simp [DateCurve.asSpread]

theorem shiftCurve_moved (a : ℕ) (grid : List D) (shifts : List ℝ) :
    Moves id (World.move e) (shiftCurve cal a grid shifts) (shiftCurve (cal.move e) a (grid.map e) shifts) := by
  unfold shiftCurve
  refine (Moves.lift (f := DateCurve.move e) ?_).bind fun s => ?_
  · exact new_moved cal grid shifts none none .default linearScheme
  · rw [asSpread_moved]
    exact setSpread_moved a (some (s.asSpread cal))

theorem parallelShift_moved (shift : ℝ) (a : ℕ) :
    Moves id (World.move e) (parallelShift cal shift a) (parallelShift (cal.move e) shift a) := by
  unfold parallelShift
  refine Moves.get.bind fun w => ?_
  refine (Moves.lift (f := e) ?_).bind fun o => shiftCurve_moved cal a [o] [shift]
  have h2 : ((w.move e).curves a).base.origin = (w.curves a).base.origin.map e := origin_moved (w.curves a).base
  rw [h2, pyDate_moved]

theorem basisPointValue_moved (disc : ℕ) (same : Bool) (p : Product D) (v : Option D) (delta : Option (List ℕ)) (shift : ℝ) :
    Moves id (World.move e) (basisPointValue cal disc same p v delta shift)
      (basisPointValue (cal.move e) disc same (p.move e) (v.map e) delta shift) := by
  unfold basisPointValue
  have hf : Moves id (World.move e) (PyM.forM (parallelShift cal shift) (delta.getD [disc]))
      (PyM.forM (parallelShift (cal.move e) shift) (delta.getD [disc])) := by
    simpa using Moves.forM (j := id) (fun a => parallelShift_moved cal shift a) (delta.getD [disc])
  have hg : Moves id (World.move (P := P) e) (PyM.forM (fun a => setSpread a none) (delta.getD [disc]))
      (PyM.forM (fun a => setSpread a none) (delta.getD [disc])) := by
    simpa using Moves.forM (j := id) (fun a => setSpread_moved (e := e) (P := P) a none) (delta.getD [disc])
  refine (pvOn_moved cal disc same v p).bind fun base => hf.bind fun _ => ?_
  refine (pvOn_moved cal disc same v p).bind fun sh => hg.bind fun _ => ?_
  exact (Moves.liftId _).bind fun q => Moves.pureId _

theorem pyLast_moved (l : List D) : pyLast (l.map e) = e <$> pyLast l := by
  unfold pyLast
  rw [List.getLast?_map]
  cases l.getLast? <;> rfl

theorem bucketShifts_moved (shift : ℝ) (grid : List D) :
    bucketShifts shift (grid.map e) = List.map (fun g => (g.1.map e, g.2)) <$> bucketShifts shift grid := by
  match grid with
  | [] => rfl
  | [x] => rfl
  | [x, y] => rfl
  | x :: y :: z :: rest =>
    have h := fun l : List D => pyLast_moved (e := e) l
    have h1 := h (x :: y :: z :: rest)
    have h2 := h (x :: y :: z :: rest).dropLast
    rw [List.map_dropLast] at h2
    simp only [List.map_cons] at h1 h2
    simp only [bucketShifts, List.map_cons, h1, h2, bind_map_py, map_bind_py, Py.map_ok]
    refine bind_congr fun a => bind_congr fun b => ?_
    congr 1
    simp only [List.map_cons, List.map_append, List.map_nil, List.map_map, List.tail_cons, List.cons_append, List.zip_cons_cons]
    congr 3
    simp only [← List.map_cons (f := e), List.zip_map, List.map_map, Function.comp_def, Prod.map_fst, Prod.map_snd, List.map_nil]
    rfl

theorem bucket_moved (disc : ℕ) (same : Bool) (p : Product D) (v : Option D) (delta : List ℕ) (shift base : ℝ)
    (g : List D × List ℝ) :
    Moves id (World.move e) (bucket cal disc same p v delta shift base g)
      (bucket (cal.move e) disc same (p.move e) (v.map e) delta shift base (g.1.map e, g.2)) := by
  unfold bucket
  have hf : Moves id (World.move e) (PyM.forM (fun a => shiftCurve cal a g.1 g.2) delta)
      (PyM.forM (fun a => shiftCurve (cal.move e) a (g.1.map e) g.2) delta) := by
    simpa using Moves.forM (j := id) (fun a => shiftCurve_moved cal a g.1 g.2) delta
  have hg : Moves id (World.move (P := P) e) (PyM.forM (fun a => setSpread a none) delta)
      (PyM.forM (fun a => setSpread a none) delta) := by
    simpa using Moves.forM (j := id) (fun a => setSpread_moved (e := e) (P := P) a none) delta
  refine hf.bind fun _ => (pvOn_moved cal disc same v p).bind fun sh => hg.bind fun _ => ?_
  exact (Moves.liftId _).bind fun q => Moves.pureId _

theorem bucketedDelta_moved (disc : ℕ) (same : Bool) (p : Product D) (v : Option D) (delta : Option (List ℕ))
    (grid : Option (List D)) (shift : ℝ) :
    Moves id (World.move e) (bucketedDelta cal disc same p v delta grid shift)
      (bucketedDelta (cal.move e) disc same (p.move e) (v.map e) delta (grid.map (List.map e)) shift) := by
  unfold bucketedDelta
  refine (pvOn_moved cal disc same v p).bind fun base => Moves.get.bind fun w => ?_
  have h : deltaGrid ((w.move e).curves disc) (grid.map (List.map e)) = (deltaGrid (w.curves disc) grid).map e := by
    cases grid with
    | none => rfl
    | some l => cases l <;> rfl
  refine (Moves.lift (f := List.map (fun g => (g.1.map e, g.2))) ?_).bind fun gs => ?_
  · rw [h, bucketShifts_moved]
  · exact Moves.mapM (fun g => bucket_moved cal disc same p v _ shift base g) gs

/-! ## Curve fit -/

theorem objCastOn_moved (scipy : Bool) (limit : ℕ) (same : D → Bool) (grid : List D) (c : CurveObj D P) :
    (c.move e).castOn (cal.move e) scipy limit (moveFn e same) (grid.map e) =
      RateCurve.move e <$> c.castOn cal scipy limit same grid := by
  rcases c with ⟨c, kind⟩
  cases kind with
  | ir cls =>
    have h := irCastOn_moved (e := e) cal cls limit same grid ⟨c, cls⟩ none none .default none
    simp only [CurveObj.castOn, CurveObj.move]
    have h' : IRCurve.castOn (cal.move e) cls limit (moveFn e same) (grid.map e) ⟨c.move e, cls⟩ none none .default none = _ := h
    rw [h', bind_map_py, map_bind_py]
    rfl
  | credit cls =>
    have h := crCastOn_moved (e := e) cal cls limit same grid ⟨c, cls⟩ none none .default none
    simp only [CurveObj.castOn, CurveObj.move]
    have h' : CRCurve.castOn (cal.move e) cls limit (moveFn e same) (grid.map e) ⟨c.move e, cls⟩ none none .default none = _ := h
    rw [h', bind_map_py, map_bind_py]
    rfl
  | vol cls floor =>
    simp only [CurveObj.castOn, CurveObj.move]
    rw [pyMap_map]
    have h := fun x => volStorage_moved (e := e) cal cls scipy limit ⟨c, cls, floor⟩ x
    have h' : (fun x => cls.storage (cal.move e) scipy limit ⟨c.move e, cls, floor⟩ (e x)) =
        cls.storage cal scipy limit ⟨c, cls, floor⟩ := funext h
    simp only [h', map_bind_py]
    refine bind_congr fun data => ?_
    have h1 : (c.move e).base.origin? = c.base.origin?.map e := rfl
    have h2 : (c.move e).base.dc = c.base.dc.move e := rfl
    have h3 := move_or (e := e) cal none c.base.origin?
    simp only [Option.map_none] at h3
    rw [h1, h2, h3, kwarg_moved, new_moved, bind_map_py]
    rfl

theorem rateAsSpread_moved (s : RateCurve D P) : (s.move e).asSpread (cal.move e) = moveFn e (s.asSpread cal) := by
  funext d
  obtain ⟨x, rfl⟩ := e.surjective d
  simp [RateCurve.asSpread]

abbrev moveFit (e : D ≃o D') : World D P × RateCurve D P → World D' P × RateCurve D' P := fun s => (s.1.move e, s.2.move e)

theorem linkSpread_moved (w : World D P) (a : ℕ) (s : RateCurve D P) :
    (w.move e).linkSpread (cal.move e) a (s.move e) = (w.linkSpread cal a s).move e := by
  unfold World.linkSpread
  rw [← setCurve_moved, rateAsSpread_moved]
  rfl

theorem setSpreadPoint_moved (a : ℕ) (d : D) (x : ℝ) :
    Moves id (moveFit (P := P) e) (setSpreadPoint cal a d x) (setSpreadPoint (cal.move e) a (e d) x) := by
  rintro ⟨w, sp⟩
  unfold setSpreadPoint
  simp only [setitem_moved]
  cases sp.setitem cal d x with
  | error err => rfl
  | ok sp' => simp only [Py.map_ok, linkSpread_moved, id]

theorem pvGap_moved (disc : ℕ) (same : Bool) (v : Option D) (q : Product D × ℝ) :
    Moves id (moveFit (P := P) e) (pvGap cal disc same v q) (pvGap (cal.move e) disc same (v.map e) (q.1.move e, q.2)) := by
  rintro ⟨w, sp⟩
  unfold pvGap
  have h := pvOn_moved (e := e) cal disc same v q.1 w
  simp only [h]
  rcases pvOn cal disc same v q.1 w with ⟨y | y, w'⟩ <;> rfl

theorem filterProducts_moved (w : World D P) (d : D) (ps : List (Product D × ℝ)) :
    filterProducts (w.move e) (e d) (ps.map fun q => (q.1.move e, q.2)) =
      List.map (fun q => (q.1.move e, q.2)) <$> filterProducts w d ps := by
  unfold filterProducts
  rw [pyMap_map]
  simp only [worldProduct_moved, cfDomain_moved, maxDate_moved]
  rw [pyMap_fmap, bind_map_py, map_bind_py]
  refine bind_congr fun ends => ?_
  simp only [Py.map_ok, List.zip_map, List.filter_map, List.map_map, Function.comp_def, Prod.map_fst, Prod.map_snd,
    e.le_iff_le]

theorem fitStep_moved (limit : ℕ) (disc : ℕ) (same : Bool) (v : Option D) (a : ℕ) (ps : List (Product D × ℝ))
    (precision lo hi : ℝ) (d : D) :
    Moves id (moveFit (P := P) e) (fitStep cal limit disc same v a ps precision lo hi d)
      (fitStep (cal.move e) limit disc same (v.map e) a (ps.map fun q => (q.1.move e, q.2)) precision lo hi (e d)) := by
  unfold fitStep
  refine Moves.get.bind fun s => ?_
  refine (Moves.lift (filterProducts_moved s.1 d ps)).bind fun qs => ?_
  refine (Moves.bracket precision limit (fun x => ?_) lo hi).bind fun _ => Moves.pureId ()
  unfold fitErr
  refine (setSpreadPoint_moved cal a d x).bind fun _ => ?_
  exact (Moves.mapM (fun q => pvGap_moved cal disc same v q) qs).bind fun _ => Moves.pureId _

theorem fitLoop_moved (limit : ℕ) (disc : ℕ) (same : Bool) (v : Option D) (a : ℕ) (ps : List (Product D × ℝ))
    (precision lo hi : ℝ) :
    Moves id (moveFit (P := P) e) (fitLoop cal limit disc same v a ps precision lo hi)
      (fitLoop (cal.move e) limit disc same (v.map e) a (ps.map fun q => (q.1.move e, q.2)) precision lo hi) := by
  unfold fitLoop
  refine Moves.get.bind fun s => ?_
  refine (Moves.forM (fun d => setSpreadPoint_moved cal a d 0) s.2.base.domain).bind fun _ => ?_
  refine Moves.get.bind fun s => ?_
  refine (Moves.forM (fun d => fitStep_moved cal limit disc same v a ps precision lo hi d) s.2.base.domain).bind fun _ => ?_
  refine Moves.get.bind fun s => Moves.lift ?_
  change pyMap _ (s.2.base.domain.map e) = _
  rw [pyMap_map, id_map_py]
  exact pyMap_congr fun d _ => rateCall_moved cal (s.1.curves a).toRateCurve d

theorem curveFit_moved (limit : ℕ) (scipy : Bool) (sameD : D → Bool) (ps : List (Product D)) (disc : ℕ) (same : Bool)
    (v : Option D) (fitting : Option ℕ) (grid : Option (List D)) (target : NumArg) (precision lo hi : ℝ) :
    Moves id (World.move (P := P) e) (curveFit cal limit scipy sameD ps disc same v fitting grid target precision lo hi)
      (curveFit (cal.move e) limit scipy (moveFn e sameD) (ps.map (Product.move e)) disc same (v.map e) fitting
        (grid.map (List.map e)) target precision lo hi) := by
  intro w
  have hg : (grid.map (List.map e)).getD ((w.move e).curves (fitting.getD disc)).base.domain =
      (grid.getD (w.curves (fitting.getD disc)).base.domain).map e := by
    cases grid <;> rfl
  have hc : ((w.move e).curves (fitting.getD disc)).castOn (cal.move e) scipy limit (moveFn e sameD)
      ((grid.getD (w.curves (fitting.getD disc)).base.domain).map e) = _ :=
    objCastOn_moved cal scipy limit sameD (grid.getD (w.curves (fitting.getD disc)).base.domain) (w.curves (fitting.getD disc))
  have hp : (ps.map (Product.move e)).zip (targetList target (ps.map (Product.move e)).length) =
      (ps.zip (targetList target ps.length)).map fun q => (q.1.move e, q.2) := by
    rw [List.length_map, List.zip_map_left]; rfl
  unfold curveFit
  dsimp only
  rw [hg, hc, hp]
  cases (w.curves (fitting.getD disc)).castOn cal scipy limit sameD
      (grid.getD (w.curves (fitting.getD disc)).base.domain) with
  | error err => rfl
  | ok sp =>
    simp only [Py.map_ok]
    have hs := setSpread_moved (e := e) (P := P) (fitting.getD disc) (some (sp.asSpread cal)) w
    simp only [Option.map_some, ← rateAsSpread_moved] at hs
    rw [hs]
    rcases setSpread (fitting.getD disc) (some (sp.asSpread cal)) w with ⟨x | x, w'⟩
    · rfl
    · have hl := fitLoop_moved (e := e) cal limit disc same v (fitting.getD disc)
        (ps.zip (targetList target ps.length)) precision lo hi (w', sp)
      simp only [Py.map_ok, id]
      change (match fitLoop (cal.move e) limit disc same (v.map e) (fitting.getD disc) _ precision lo hi (moveFit e (w', sp)) with
        | (.error e, s) => _ | (.ok data, s) => _) = _
      rw [hl]
      rcases fitLoop cal limit disc same v (fitting.getD disc) (ps.zip (targetList target ps.length)) precision lo hi (w', sp)
        with ⟨y | y, s⟩
      · rfl
      · have h0 := setSpread_moved (e := e) (P := P) (fitting.getD disc) none s.1
        simp only [Option.map_none] at h0
        simp only [Py.map_ok, id]
        rw [h0]
        cases (setSpread (fitting.getD disc) none s.1).1 <;> rfl

end

end Dcf
