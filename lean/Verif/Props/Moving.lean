import Verif.Lemmas.MovingPricer
import Mathlib.Algebra.Order.Group.OrderIso

/-! # Moving all dates (C162) -/

set_option linter.unusedSectionVars false
set_option linter.unusedSimpArgs false
set_option linter.unusedVariables false

namespace Dcf

namespace Spec

/-- `e` renames dates such that order, year fractions and adding or subtracting a period stay as they are, and no date turns
from true to false in a boolean context. -/
structure SameDates {D D' P : Type} [LinearOrder D] [LinearOrder D'] (cal : Cal D P) (cal' : Cal D' P) (e : D ≃o D') : Prop where
  dayCount : ∀ s t, cal'.dayCount (e s) (e t) = cal.dayCount s t
  add : ∀ d p, cal'.add (e d) p = e <$> cal.add d p
  sub : ∀ d p, cal'.sub (e d) p = e <$> cal.sub d p
  falsy : ∀ d, cal'.falsy (e d) = cal.falsy d
  falsyPeriod : ∀ p, cal'.falsyPeriod p = cal.falsyPeriod p
  oneDay : cal'.oneDay = cal.oneDay
  threeMonths : cal'.threeMonths = cal.threeMonths
  oneYear : cal'.oneYear = cal.oneYear
  tenYears : cal'.tenYears = cal.tenYears

end Spec

open Spec

section
variable {D D' P : Type} [LinearOrder D] [LinearOrder D'] {cal : Cal D P} {cal' : Cal D' P} {e : D ≃o D'}

/-- A call with its dates renamed. -/
def PriceCall.move (e : D ≃o D') : PriceCall D P → PriceCall D' P
  | .presentValue p disc same v => .presentValue (p.move e) disc same (v.map e)
  | .yieldToMaturity limit same interp origin dc tenor p v target precision lo hi =>
    .yieldToMaturity limit same interp (origin.map e) (dc.move e) tenor (p.move e) (v.map e) target precision lo hi
  | .interestAccrued p v => .interestAccrued (p.move e) (e v)
  | .fairRate limit p disc same v target precision lo hi => .fairRate limit (p.move e) disc same (v.map e) target precision lo hi
  | .basisPointValue p disc same v delta shift => .basisPointValue (p.move e) disc same (v.map e) delta shift
  | .bucketedDelta p disc same v delta grid shift =>
    .bucketedDelta (p.move e) disc same (v.map e) delta (grid.map (List.map e)) shift
  | .curveFit limit scipy sameD ps disc same v fitting grid target precision lo hi =>
    .curveFit limit scipy (moveFn e sameD) (ps.map (Product.move e)) disc same (v.map e) fitting (grid.map (List.map e))
      target precision lo hi

theorem Spec.SameDates.eq (h : SameDates cal cal' e) : cal' = cal.move e := by
  have hs : ∀ d, e (e.symm d) = d := e.apply_symm_apply
  rcases cal' with ⟨a1, a2, a3, a4, a5, a6, a7, a8, a9⟩
  have h1 : a1 = moveFn2 e cal.dayCount := by
    funext s t; have := h.dayCount (e.symm s) (e.symm t); simpa [moveFn2] using this
  have h2 : a2 = fun d p => e <$> cal.add (e.symm d) p := by
    funext d p; have := h.add (e.symm d) p; simpa using this
  have h3 : a3 = fun d p => e <$> cal.sub (e.symm d) p := by
    funext d p; have := h.sub (e.symm d) p; simpa using this
  have h8 : a8 = moveFn e cal.falsy := by
    funext d; have := h.falsy (e.symm d); simpa [moveFn] using this
  have h9 : a9 = cal.falsyPeriod := funext h.falsyPeriod
  have h4 := h.oneDay
  have h5 := h.threeMonths
  have h6 := h.oneYear
  have h7 := h.tenYears
  subst h1 h2 h3 h4 h5 h6 h7 h8 h9
  rfl

/-! ## Curves -/

/-- C162: an interest rate curve made with renamed dates answers on renamed dates as the curve on the old dates does, and its
construction fails in the same cases. -/
theorem C162_interest_rate_curves (h : SameDates cal cal' e) (cls : IRClass) (domain : List D) (data : List ℝ)
    (interp : Option FuncSpec) (origin : Option D) (dc : DayCountArg D) (tenor : Option P) :
    (∀ err, IRCurve.new cal cls domain data interp origin dc tenor = .error err →
      IRCurve.new cal' cls (domain.map e) data interp (origin.map e) (dc.move e) tenor = .error err) ∧
    ∀ c, IRCurve.new cal cls domain data interp origin dc tenor = .ok c →
      ∃ c', IRCurve.new cal' cls (domain.map e) data interp (origin.map e) (dc.move e) tenor = .ok c' ∧
        (∀ d, c'.call cal' (e d) = c.call cal d) ∧
        (∀ same s t, c'.factor cal' same (e s) (e t) = c.factor cal same s t) ∧
        (∀ same s t, c'.rate cal' same (e s) (e t) = c.rate cal same s t) ∧
        (∀ t, c'.discount cal' (e t) = c.discount cal t) ∧
        (∀ t, c'.zero cal' (e t) = c.zero cal t) ∧
        (∀ same limit s, c'.shortRate cal' same limit (e s) = c.shortRate cal same limit s) ∧
        (∀ same limit s t p, c'.cashRate cal' same limit (e s) (t.map e) p = c.cashRate cal same limit s t p) ∧
        ∀ ds, c'.swapAnnuity cal' (ds.map e) = c.swapAnnuity cal ds := by
  obtain rfl := h.eq
  rw [irNew_moved]
  refine ⟨fun err hc => by rw [hc]; rfl, fun c hc => ⟨c.move e, by rw [hc]; rfl, ?_⟩⟩
  refine ⟨irCall_moved cal c, irFactor_moved cal c, irRateOf_moved cal c, irDiscount_moved cal c, irZero_moved cal c,
    irShortRate_moved cal c, irCashRate_moved cal c, irAnnuity_moved cal c⟩

/-- C162: the same for credit curves. -/
theorem C162_credit_curves (h : SameDates cal cal' e) (cls : CRClass) (domain : List D) (data : List ℝ)
    (interp : Option FuncSpec) (origin : Option D) (dc : DayCountArg D) (tenor : Option P) :
    (∀ err, CRCurve.new cal cls domain data interp origin dc tenor = .error err →
      CRCurve.new cal' cls (domain.map e) data interp (origin.map e) (dc.move e) tenor = .error err) ∧
    ∀ c, CRCurve.new cal cls domain data interp origin dc tenor = .ok c →
      ∃ c', CRCurve.new cal' cls (domain.map e) data interp (origin.map e) (dc.move e) tenor = .ok c' ∧
        (∀ d, c'.call cal' (e d) = c.call cal d) ∧
        (∀ same s t, c'.factor cal' same (e s) (e t) = c.factor cal same s t) ∧
        (∀ same s t, c'.rate cal' same (e s) (e t) = c.rate cal same s t) ∧
        (∀ t, c'.survivalProb cal' (e t) = c.survivalProb cal t) ∧
        (∀ t, c'.flatIntensity cal' (e t) = c.flatIntensity cal t) ∧
        ∀ same limit s, c'.hazardRate cal' same limit (e s) = c.hazardRate cal same limit s := by
  obtain rfl := h.eq
  rw [crNew_moved]
  refine ⟨fun err hc => by rw [hc]; rfl, fun c hc => ⟨c.move e, by rw [hc]; rfl, ?_⟩⟩
  exact ⟨crCall_moved cal c, crFactor_moved cal c, crRateOf_moved cal c, crSurvival_moved cal c, crFlat_moved cal c,
    crHazard_moved cal c⟩

/-- C162: the same for volatility curves. -/
theorem C162_volatility_curves (h : SameDates cal cal' e) (cls : VolClass) (floor : Option ℝ) (domain : List D) (data : List ℝ)
    (interp : Option FuncSpec) (origin : Option D) (dc : DayCountArg D) (tenor : Option P) :
    (∀ err, VolCurve.new cal cls floor domain data interp origin dc tenor = .error err →
      VolCurve.new cal' cls floor (domain.map e) data interp (origin.map e) (dc.move e) tenor = .error err) ∧
    ∀ c, VolCurve.new cal cls floor domain data interp origin dc tenor = .ok c →
      ∃ c', VolCurve.new cal' cls floor (domain.map e) data interp (origin.map e) (dc.move e) tenor = .ok c' ∧
        (∀ d, c'.call cal' (e d) = c.call cal d) ∧
        (∀ scipy limit s t, c'.terminalVol cal' scipy limit (e s) (t.map e) = c.terminalVol cal scipy limit s t) ∧
        ∀ limit s, c'.instantaneousVol cal' limit (e s) = c.instantaneousVol cal limit s := by
  obtain rfl := h.eq
  have hn : VolCurve.new (cal.move e) cls floor (domain.map e) data interp (origin.map e) (dc.move e) tenor =
      VolCurve.move e <$> VolCurve.new cal cls floor domain data interp origin dc tenor := by
    unfold VolCurve.new
    rw [new_moved, bind_map_py, map_bind_py]
    rfl
  rw [hn]
  refine ⟨fun err hc => by rw [hc]; rfl, fun c hc => ⟨c.move e, by rw [hc]; rfl, ?_⟩⟩
  exact ⟨volCall_moved cal c, fun scipy limit s t => terminalVol_moved cal scipy limit c s t,
    fun limit s => instantaneousVol_moved cal limit c s⟩

/-! ## Cashflow lists -/

theorem ofPayoffs_moved (dates : List D) (payoffs : List (PayOff D P)) (origin : Option D) (arg : ModelArg D) (m : Bool) :
    CFList.ofPayoffs (dates.map e) (payoffs.map (PayOff.move e)) (origin.map e) (arg.move e) m =
      CFList.move e <$> CFList.ofPayoffs dates payoffs origin arg m := by
  unfold CFList.ofPayoffs
  simp only [List.length_map]
  split_ifs
  · have h : (dates.map e).zip (payoffs.map (PayOff.move e)) = (dates.zip payoffs).map fun p => (e p.1, p.2.move e) := by
      rw [List.zip_map]; rfl
    rw [h, ofPairs_moved]
    rfl
  · rfl

theorem ratePays_moved (starts dates : List D) (amounts : List ℝ) (po : Option P) {mk : D → D → ℝ → PayOff D P}
    {mk' : D' → D' → ℝ → PayOff D' P} (h : ∀ s t x, mk' (e s) (e t) x = (mk s t x).move e) :
    ratePays (cal.move e) (starts.map e) (dates.map e) amounts po mk' =
      List.map (PayOff.move e) <$> ratePays cal starts dates amounts po mk := by
  have hz : (starts.map e).zip ((dates.map e).zip amounts) =
      (starts.zip (dates.zip amounts)).map fun x => (e x.1, e x.2.1, x.2.2) := by
    have h1 : (dates.map e).zip amounts = (dates.zip amounts).map (Prod.map e id) := List.zip_map_left ..
    rw [h1, List.zip_map]; rfl
  unfold ratePays
  rw [hz, pyMap_map, ← pyMap_fmap]
  refine pyMap_congr fun x _ => ?_
  simp only [minus_moved, bind_map_py, map_bind_py, h, Py.map_ok]

theorem accrualStarts_moved {back : D → D → Py D} {back' : D' → D' → Py D'} (h : ∀ s t, back' (e s) (e t) = e <$> back s t)
    (o : Option D) (dates : List D) :
    accrualStarts back' (o.map e) (dates.map e) = List.map e <$> accrualStarts back o dates := by
  cases o with
  | some o => simp [accrualStarts, List.map_dropLast]
  | none =>
    match dates with
    | [] => rfl
    | [d] => rfl
    | d0 :: d1 :: ds =>
      simp only [accrualStarts, Option.map_none, List.map_cons, h, bind_map_py, map_bind_py, Py.map_ok]
      refine bind_congr fun s => ?_
      rw [← List.map_cons (f := e), ← List.map_cons (f := e), ← List.map_dropLast]

/-- C162: lists of amounts. -/
theorem C162_lists (dates : List D) (amounts : NumArg) (origin : Option D) :
    (CFList.new (dates.map e) amounts (origin.map e) : Py (CFList D' P)) = CFList.move e <$> CFList.new dates amounts origin ∧
    (CFList.newFixed (dates.map e) amounts (origin.map e) : Py (CFList D' P)) =
      CFList.move e <$> CFList.newFixed dates amounts origin := by
  constructor
  · have h := ofPayoffs_moved (e := e) (P := P) dates ((amounts.expand dates.length).map .num) origin (.fwd .none) false
    rw [List.map_map] at h
    unfold CFList.new
    rw [List.length_map]
    exact h
  · have h := ofPayoffs_moved (e := e) (P := P) dates ((amounts.expand dates.length).map .fixed) origin (.fwd .none) false
    rw [List.map_map] at h
    unfold CFList.newFixed
    rw [List.length_map]
    exact h

/-- C162: rate lists. -/
theorem C162_rate_lists (h : SameDates cal cal' e) {back : D → D → Py D} {back' : D' → D' → Py D'}
    (hb : ∀ s t, back' (e s) (e t) = e <$> back s t) (dates : List D) (amounts : NumArg) (origin : Option D)
    (dayCount : Option (D → D → ℝ)) (fixingOffset payOffset : Option P) (fixedRate : ℝ) (forward : Fwd D) :
    CFList.newRate cal' back' (dates.map e) amounts (origin.map e) (dayCount.map (moveFn2 e)) fixingOffset payOffset fixedRate
        (forward.move e) =
      CFList.move e <$> CFList.newRate cal back dates amounts origin dayCount fixingOffset payOffset fixedRate forward := by
  obtain rfl := h.eq
  unfold CFList.newRate
  rw [accrualStarts_moved hb, bind_map_py, map_bind_py]
  refine bind_congr fun starts => ?_
  rw [List.length_map, ratePays_moved (mk := fun s t a => .rate ⟨s, t, a, dayCount, fixingOffset, some fixedRate⟩)
    starts dates _ payOffset (fun s t x => rfl), bind_map_py, map_bind_py]
  refine bind_congr fun ps => ?_
  exact ofPayoffs_moved dates ps origin (.fwd forward) false

/-- C162: lists of capped and floored rate cashflows. -/
theorem C162_contingent_rate_lists (h : SameDates cal cal' e) {back : D → D → Py D} {back' : D' → D' → Py D'}
    (hb : ∀ s t, back' (e s) (e t) = e <$> back s t) (dates : List D) (amounts : NumArg) (origin : Option D)
    (dayCount : Option (D → D → ℝ)) (fixingOffset payOffset : Option P) (fixedRate : ℝ) (cap floor : Option ℝ)
    (arg : ModelArg D) :
    CFList.newContingentRate cal' back' (dates.map e) amounts (origin.map e) (dayCount.map (moveFn2 e)) fixingOffset payOffset
        fixedRate cap floor (arg.move e) =
      CFList.move e <$>
        CFList.newContingentRate cal back dates amounts origin dayCount fixingOffset payOffset fixedRate cap floor arg := by
  obtain rfl := h.eq
  have hs : contingentStarts (cal.move e) back' (origin.map e) (dates.map e) =
      List.map e <$> contingentStarts cal back origin dates := by
    cases origin with
    | none => exact accrualStarts_moved hb none dates
    | some o =>
      simp only [contingentStarts, Option.map_some, move_falsy]
      split_ifs
      · cases dates <;> rfl
      · simp [List.map_dropLast]
  unfold CFList.newContingentRate
  rw [hs, bind_map_py, map_bind_py]
  refine bind_congr fun starts => ?_
  rw [List.length_map, ratePays_moved
    (mk := fun s t a => .contingentRate ⟨⟨s, t, a, dayCount, fixingOffset, some fixedRate⟩, floor, cap⟩)
    starts dates _ payOffset (fun s t x => rfl), bind_map_py, map_bind_py]
  refine bind_congr fun ps => ?_
  exact ofPayoffs_moved dates ps origin arg true

/-- C162: option lists. -/
theorem C162_option_lists (h : SameDates cal cal' e) (dates : List D) (amounts strikes : NumArg) (isPut : BoolArg)
    (fixingOffset payOffset : Option P) (origin : Option D) (arg : ModelArg D) :
    CFList.newOption cal' (dates.map e) amounts strikes isPut fixingOffset payOffset (origin.map e) (arg.move e) =
      CFList.move e <$> CFList.newOption cal dates amounts strikes isPut fixingOffset payOffset origin arg := by
  obtain rfl := h.eq
  unfold CFList.newOption
  simp only [List.length_map]
  rw [List.zip_map_left, pyMap_map, map_bind_py]
  have hp : ∀ x : D × ℝ × ℝ × Bool, (do
      let d ← (cal.move e).minus payOffset (e x.1)
      let d ← (cal.move e).minus fixingOffset d
      .ok (PayOff.option (P := P) ⟨d, x.2.1, some x.2.2.1, x.2.2.2⟩)) = PayOff.move e <$> (do
      let d ← cal.minus payOffset x.1
      let d ← cal.minus fixingOffset d
      .ok (PayOff.option (P := P) ⟨d, x.2.1, some x.2.2.1, x.2.2.2⟩)) := by
    intro x
    simp only [minus_moved, bind_map_py, map_bind_py, Py.map_ok]
    rfl
  simp only [Prod.map_fst, Prod.map_snd, id, hp]
  rw [pyMap_fmap, bind_map_py]
  refine bind_congr fun ps => ?_
  exact ofPayoffs_moved dates ps origin arg true

/-- C162: the cashflows of a list with renamed dates are those of the list. -/
theorem C162_flows (h : SameDates cal cal' e) (l : CFList D P) (d : D) :
    (l.move e).getitem cal' (e d) = l.getitem cal d ∧ (l.move e).origin = l.origin.map e ∧
      (l.move e).domain = l.domain.map e := by
  obtain rfl := h.eq
  exact ⟨getitem_moved cal l d, listOrigin_moved l, rfl⟩

/-! ## Pricing -/

theorem run_moved (c : PriceCall D P) :
    Moves id (World.move e) (c.run cal) ((c.move e).run (cal.move e)) := by
  cases c with
  | presentValue p disc same v => exact (pvOn_moved cal disc same v p).bind fun _ => Moves.pureId _
  | yieldToMaturity limit same interp origin dc tenor p v target precision lo hi =>
    exact (ytm_moved cal limit same interp origin dc tenor p v target precision lo hi).bind fun _ => Moves.pureId _
  | interestAccrued p v =>
    intro w
    simp only [PriceCall.run, PriceCall.move, accrued_moved, id_map_py]
  | fairRate limit p disc same v target precision lo hi =>
    exact (fairRate_moved cal limit disc same p v target precision lo hi).bind fun _ => Moves.pureId _
  | basisPointValue p disc same v delta shift =>
    exact (basisPointValue_moved cal disc same p v delta shift).bind fun _ => Moves.pureId _
  | bucketedDelta p disc same v delta grid shift => exact bucketedDelta_moved cal disc same p v delta grid shift
  | curveFit limit scipy sameD ps disc same v fitting grid target precision lo hi =>
    exact curveFit_moved cal limit scipy sameD ps disc same v fitting grid target precision lo hi

/-- C162: every pricing function, on objects and arguments with renamed dates, returns what it returns on the old dates (or
raises what it raises there) and leaves the objects in the same state. -/
theorem C162_calls (h : SameDates cal cal' e) (c : PriceCall D P) (w : World D P) :
    (c.move e).run cal' (w.move e) = ((c.run cal w).1, (c.run cal w).2.move e) := by
  obtain rfl := h.eq
  have := run_moved (cal := cal) (e := e) c w
  rw [id_map_py] at this
  exact this

/-- C162: so does every session of such calls. -/
theorem C162_session (h : SameDates cal cal' e) (cs : List (PriceCall D P)) (w : World D P) :
    session cal' (cs.map (PriceCall.move e)) (w.move e) = ((session cal cs w).1, (session cal cs w).2.move e) := by
  induction cs generalizing w with
  | nil => rfl
  | cons c cs ih => simp only [List.map_cons, session, C162_calls h c w, ih]

end

theorem sameDates_move {D D' P : Type} [LinearOrder D] [LinearOrder D'] (cal : Cal D P) (e : D ≃o D') :
    SameDates cal (cal.move e) e where
  dayCount := move_dayCount cal
  add := move_add cal
  sub := move_sub cal
  falsy := move_falsy cal
  falsyPeriod _ := rfl
  oneDay := rfl
  threeMonths := rfl
  oneYear := rfl
  tenYears := rfl

/-- Non-vacuity of C162_calls and C162_session: float dates in months in place of years. -/
example : ∃ x, session (floatCal.move (OrderIso.mulRight₀ (12 : ℝ) (by norm_num)))
    [.presentValue (.list 1) 0 false (some 0), .presentValue (.list 1) 0 false (some 0)]
    (exWorld.move (OrderIso.mulRight₀ 12 (by norm_num))) =
      ([.ok [x], .ok [x]], exWorld.move (OrderIso.mulRight₀ 12 (by norm_num))) := by
  obtain ⟨x, hx⟩ := exPv
  have h0 : (0 : ℝ) = OrderIso.mulRight₀ (12 : ℝ) (by norm_num) 0 := by simp
  have h := C162_session (sameDates_move floatCal (OrderIso.mulRight₀ (12 : ℝ) (by norm_num)))
    [.presentValue (.list 1) 0 false (some 0), .presentValue (.list 1) 0 false (some 0)] exWorld
  refine ⟨x, ?_⟩
  simp only [List.map_cons, List.map_nil, PriceCall.move, Product.move, Option.map_some, ← h0] at h
  rw [h]
  simp only [session, PriceCall.run]
  rw [PyM.bind_ok hx]
  simp only [PyM.pure_run]
  rw [PyM.bind_ok hx]
  rfl

/-! ## Moving dates by days -/

/-- All dates `n` days later. -/
def laterBy (n : ℤ) : ℤ ≃o ℤ := OrderIso.addRight n

theorem laterBy_apply (n d : ℤ) : laterBy n d = d + n := rfl

theorem sameDates_days (n : ℤ) : SameDates dayCal dayCal (laterBy n) where
  dayCount s t := by simp [dayCal, laterBy_apply]
  add d p := by simp [dayCal, laterBy_apply]; ring
  sub d p := by simp [dayCal, laterBy_apply]; ring
  falsy _ := rfl
  falsyPeriod _ := rfl
  oneDay := rfl
  threeMonths := rfl
  oneYear := rfl
  tenYears := rfl

/-- C162: on day numbers a present value does not change if all dates are moved by the same number of days. -/
theorem C162_days (n : ℤ) (w : World ℤ ℤ) (a disc : ℕ) (same : Bool) (v : Option ℤ) :
    (pvOn dayCal disc same (v.map (· + n)) (.list a) (w.move (laterBy n))).1 = (pvOn dayCal disc same v (.list a) w).1 := by
  have h := C162_calls (sameDates_days n) (.presentValue (.list a) disc same v) w
  simp only [PriceCall.run, PriceCall.move, Product.move] at h
  have h1 := congrArg Prod.fst h
  simp only [PyM.bind_run] at h1
  have hv : v.map (laterBy n) = v.map (· + n) := rfl
  rw [hv] at h1
  revert h1
  rcases pvOn dayCal disc same (v.map (· + n)) (.list a) (w.move (laterBy n)) with ⟨x | x, s⟩ <;>
    rcases pvOn dayCal disc same v (.list a) w with ⟨y | y, s'⟩ <;> simp

/-- C162 does not hold for float dates: the date `0.0` is false in a boolean context.  A list of capped and floored rate
cashflows from origin 0 to date 1 pays nothing at 1; from origin 1 to date 2 it pays the coupon at 2. -/
theorem C162_float_violated (back : ℝ → ℝ → Py ℝ) :
    ∃ l l' : CFList ℝ FloatPeriod,
      CFList.newContingentRate floatCal back [1] (.scalar 100) (some 0) none none none 1 none none (.fwd .none) = .ok l ∧
      CFList.newContingentRate floatCal back [2] (.scalar 100) (some 1) none none none 1 none none (.fwd .none) = .ok l' ∧
      l.getitem floatCal 1 = .ok 0 ∧ l'.getitem floatCal 2 = .ok 100 := by
  refine ⟨⟨some 0, [1], [(1, .contingentRate ⟨⟨1, 1, 100, none, none, some 1⟩, none, none⟩)], .fwd .none, true⟩,
    ⟨some 1, [2], [(2, .contingentRate ⟨⟨1, 2, 100, none, none, some 1⟩, none, none⟩)], .fwd .none, true⟩, ?_, ?_, ?_, ?_⟩
  · simp [CFList.newContingentRate, contingentStarts, floatCal, ratePays, pyMap, NumArg.expand, Cal.minus,
      CFList.newContingent, CFList.ofPayoffs, Dict.ofPairs, Dict.set]
  · simp [CFList.newContingentRate, contingentStarts, floatCal, ratePays, pyMap, NumArg.expand, Cal.minus,
      CFList.newContingent, CFList.ofPayoffs, Dict.ofPairs, Dict.set]
  · simp [CFList.getitem, Dict.get, PayOff.eval, ContingentRatePay.cashflow, RatePay.details, RatePay.tau, floatCal,
      RatePay.forwardAt, ModelArg.truthy, ModelArg.curve, Fwd.truthy]
  · simp [CFList.getitem, Dict.get, PayOff.eval, ContingentRatePay.cashflow, RatePay.details, RatePay.tau, floatCal,
      RatePay.forwardAt, ModelArg.truthy, ModelArg.curve, Fwd.truthy]
    norm_num

/-! ### The hypotheses can be met: each theorem applied -/

/-- Months in place of years. -/
noncomputable def exMonths : ℝ ≃o ℝ := OrderIso.mulRight₀ (12 : ℝ) (by norm_num)

theorem exSameDates : SameDates floatCal (floatCal.move exMonths) exMonths := sameDates_move floatCal exMonths

example := C162_interest_rate_curves exSameDates .zero [0, 1] [1 / 100, 2 / 100] none none .default none
example := C162_credit_curves exSameDates .flat [0, 1] [1 / 100, 2 / 100] none none .default none
example := C162_volatility_curves exSameDates .terminal none [0, 1] [1 / 100, 2 / 100] none none .default none
example := C162_rate_lists exSameDates (back := fun _ _ => .error .value) (back' := fun _ _ => .error .value) (fun _ _ => rfl) [1, 2] (.scalar 100) (some 0) none none none
  (1 / 100) (.num (2 / 100))
example := C162_contingent_rate_lists exSameDates (back := fun _ _ => .error .value) (back' := fun _ _ => .error .value) (fun _ _ => rfl) [1, 2] (.scalar 100) (some 0)
  none none none (1 / 100) (some (3 / 100)) none (.fwd (.num (2 / 100)))
example := C162_option_lists exSameDates [1, 2] (.scalar 100) (.list [5, 6]) (.scalar true) none none (some 0) (.fwd .none)
example := fun l d => C162_flows exSameDates l d
example := C162_calls exSameDates (.presentValue (.list 1) 0 false (some 0)) exWorld

end Dcf
