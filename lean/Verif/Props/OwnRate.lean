import Verif.Props.OwnInterp
import Verif.Props.CreditCurve
import Verif.Props.PresentValue
import Verif.Props.RateCast
import Verif.Props.VolCurve
import Verif.Model.OwnRate

/-! # C173: rate curves with an interpolation written by the user -/

set_option linter.unusedSectionVars false
set_option linter.unusedSimpArgs false
set_option linter.unusedVariables false

namespace Dcf

open Spec

/-- An interpolation function whose functions are defined everywhere: on points with increasing `x` it returns a real function
through them. -/
def Spec.Interpolates (γ : Fit) : Prop :=
  ∀ pts : List (ℝ × ℝ), pts ≠ [] → (pts.map Prod.fst).Pairwise (· < ·) →
    ∃ g : ℝ → ℝ, γ (pts.map Prod.fst) (pts.map Prod.snd) = .ok (fun x => .ok (some (g x))) ∧ ∀ p ∈ pts, g p.1 = p.2

section
variable {D P : Type} [LinearOrder D] {cal : Cal D P} {γ γ' : Fit} {r r' : Option Fit} {dc : DayCountArg D} {o : D} {o? : Option D}
  {tenor : Option P} {pts : List (D × ℝ)}

theorem ownNew_run (hd : dc.Usable) (ho : o?.or (pts.map Prod.fst).head? = some o) (i : InterpArg) (dflt : FuncSpec) :
    OwnDateCurve.new cal (pts.map Prod.fst) (pts.map Prod.snd) i o? dc dflt =
      (fun g => ⟨pts.map Prod.fst, o?, dc, i, dflt, [], g⟩) <$> i.call (libFit dflt) ((sortPairs (timePts (dc.fn cal) o pts)).map Prod.fst)
        ((sortPairs (timePts (dc.fn cal) o pts)).map Prod.snd) := by
  unfold OwnDateCurve.new
  rw [if_neg (by simp)]
  unfold OwnDateCurve.update
  rw [pyMap_ok (g := dc.fn cal o) fun x _ => by
      simp only [OwnDateCurve.time, OwnDateCurve.origin, ho, pyDate, Py.ok_bind, DayCountArg.eval_eq cal hd], Py.ok_bind, ← timePts_fst,
    ← timePts_snd (dc.fn cal) o pts, ownFit_points]
  cases i.call (libFit dflt) ((sortPairs (timePts (dc.fn cal) o pts)).map Prod.fst) ((sortPairs (timePts (dc.fn cal) o pts)).map Prod.snd) <;> rfl

/-- The rate curve with function `g`. -/
def ownOf (o? : Option D) (dc : DayCountArg D) (dflt : FuncSpec) (tenor : Option P) (domain : List D) (g : ℝ → Py (Option ℝ)) : RateCurve D P :=
  ⟨⟨domain, o?, dc, none, dflt, [], .own g⟩, tenor, none⟩

theorem ownRate_run (hd : dc.Usable) (ho : o?.or (pts.map Prod.fst).head? = some o) (i : InterpArg) (dflt : FuncSpec) :
    RateCurve.own cal dflt (pts.map Prod.fst) (pts.map Prod.snd) i o? dc tenor =
      ownOf o? dc dflt tenor (pts.map Prod.fst) <$> i.call (libFit dflt) ((sortPairs (timePts (dc.fn cal) o pts)).map Prod.fst)
        ((sortPairs (timePts (dc.fn cal) o pts)).map Prod.snd) := by
  unfold RateCurve.own
  rw [ownNew_run hd ho]
  cases i.call (libFit dflt) ((sortPairs (timePts (dc.fn cal) o pts)).map Prod.fst) ((sortPairs (timePts (dc.fn cal) o pts)).map Prod.snd) <;> rfl

theorem ownOf_call (hd : dc.Usable) {dflt : FuncSpec} {domain : List D} (ho : o?.or domain.head? = some o) (g : ℝ → Py (Option ℝ)) (x : D) :
    (ownOf o? dc dflt tenor domain g).call cal x = (do pyNum (← g (dc.fn cal o x))) := by
  have ht : (ownOf o? dc dflt tenor domain g).base.time cal x = .ok (dc.fn cal o x) :=
    time_eq cal (c := (ownOf o? dc dflt tenor domain g : RateCurve D P).base) ho hd x
  have hb : (ownOf o? dc dflt tenor domain g).base.call cal x = g (dc.fn cal o x) := by
    unfold DateCurve.call
    rw [show (ownOf o? dc dflt tenor domain g : RateCurve D P).base.fixings.get x = none from rfl]
    simp only [ht]
    rfl
  unfold RateCurve.call
  rw [hb]
  show (do
    let s ← (Except.ok (some 0) : Py (Option ℝ))
    let b ← g (dc.fn cal o x)
    let b ← pyNum b
    let s ← pyNum s
    Except.ok (b + s)) = _
  cases g (dc.fn cal o x) with
  | error e => rfl
  | ok y => cases y <;> simp [pyNum]

/-- The curve object of a rate curve with an own interpolation, with all that is read from it. -/
theorem ownRate_eq (hγ : Spec.Interpolates γ) (hn : (pts.map Prod.fst).Nodup) (hne : pts ≠ []) (ho : o?.or (pts.map Prod.fst).head? = some o)
    (hd : dc.Usable) (hτ : GoodDayCount (dc.fn cal)) (dflt : FuncSpec) :
    ∃ g : ℝ → ℝ, RateCurve.own cal dflt (pts.map Prod.fst) (pts.map Prod.snd) (.func γ r) o? dc tenor =
        .ok (ownOf o? dc dflt tenor (pts.map Prod.fst) fun x => .ok (some (g x))) ∧
      (∀ x, (ownOf o? dc dflt tenor (pts.map Prod.fst) fun x => .ok (some (g x)) : RateCurve D P).call cal x = .ok (g (dc.fn cal o x))) ∧
      (∀ p ∈ pts, g (dc.fn cal o p.1) = p.2) ∧
      γ ((sortPairs (timePts (dc.fn cal) o pts)).map Prod.fst) ((sortPairs (timePts (dc.fn cal) o pts)).map Prod.snd) = .ok (fun x => .ok (some (g x))) := by
  obtain ⟨g, h1, h2⟩ := hγ (sortPairs (timePts (dc.fn cal) o pts))
    (fun h => hne (by
      have := (sortPairs_perm (timePts (dc.fn cal) o pts)).length_eq
      rw [h] at this
      simpa [timePts] using this.symm))
    (by rw [List.pairwise_map]; exact sortPairs_strict (timePts_nodup hτ o hn))
  refine ⟨g, ?_, fun x => ?_, fun p hp => h2 (dc.fn cal o p.1, p.2) ((sortPairs_perm _).mem_iff.2 (List.mem_map.2 ⟨p, hp, rfl⟩)), h1⟩
  · rw [ownRate_run hd ho]
    show ownOf o? dc dflt tenor (pts.map Prod.fst) <$> γ _ _ = _
    rw [h1]; rfl
  · rw [ownOf_call hd ho]; rfl

/-- C173 (rate curves): with any interpolation through the points, curves of every class answer for all dates, take the given values
and keep dates, day count, origin and tenor.  The theorems about rate curves that answer (C28-C35, C54 ff.) hold for them. -/
theorem C173_rates (hγ : Spec.Interpolates γ) (hn : (pts.map Prod.fst).Nodup) (hne : pts ≠ []) (ho : o?.or (pts.map Prod.fst).head? = some o)
    (hd : dc.Usable) (hτ : GoodDayCount (dc.fn cal)) (cls : IRClass) :
    ∃ (c : IRCurve D P) (v : D → ℝ), IRCurve.own cal cls (pts.map Prod.fst) (pts.map Prod.snd) (.func γ r) o? dc tenor = .ok c ∧
      Answers cal c v (dc.fn cal) o ∧ (∀ p ∈ pts, v p.1 = p.2) ∧ c.cls = cls ∧ c.base.domain = pts.map Prod.fst ∧ c.tenor = tenor ∧
      c.base.origin? = o? ∧ c.base.dc = dc ∧ c.spread = none := by
  obtain ⟨g, h1, h2, h3, -⟩ := ownRate_eq (r := r) (tenor := tenor) hγ hn hne ho hd hτ cls.dflt
  refine ⟨⟨ownOf o? dc cls.dflt tenor (pts.map Prod.fst) fun x => .ok (some (g x)), cls⟩, fun x => g (dc.fn cal o x), ?_,
    ⟨h2, fun s e => DayCountArg.eval_eq cal hd s e, hτ, ho⟩, h3, rfl, rfl, rfl, rfl, rfl, rfl⟩
  unfold IRCurve.own
  rw [h1]; rfl

/-- C173 (order): for a given origin the order of the points does not matter, whatever the function. -/
theorem C173_order {pts' : List (D × ℝ)} (h : pts.Perm pts') (hd : dc.Usable) (cls : IRClass) (i : InterpArg) (o : D) :
    (∃ e, IRCurve.own cal cls (pts.map Prod.fst) (pts.map Prod.snd) i (some o) dc tenor = .error e ∧
      IRCurve.own cal cls (pts'.map Prod.fst) (pts'.map Prod.snd) i (some o) dc tenor = .error e) ∨
    ∃ c c' : IRCurve D P, IRCurve.own cal cls (pts.map Prod.fst) (pts.map Prod.snd) i (some o) dc tenor = .ok c ∧
      IRCurve.own cal cls (pts'.map Prod.fst) (pts'.map Prod.snd) i (some o) dc tenor = .ok c' ∧ ∀ x, c.call cal x = c'.call cal x := by
  unfold IRCurve.own
  rw [ownRate_run (o := o) hd rfl, ownRate_run (o := o) hd rfl, sortPairs_congr (l := timePts (dc.fn cal) o pts) (l' := timePts (dc.fn cal) o pts') (h.map _)]
  cases i.call (libFit cls.dflt) ((sortPairs (timePts (dc.fn cal) o pts')).map Prod.fst) ((sortPairs (timePts (dc.fn cal) o pts')).map Prod.snd) with
  | error e => exact .inl ⟨e, rfl, rfl⟩
  | ok g =>
    refine .inr ⟨_, _, rfl, rfl, fun x => ?_⟩
    show (ownOf (some o) dc cls.dflt tenor _ g).call cal x = (ownOf (some o) dc cls.dflt tenor _ g).call cal x
    rw [ownOf_call (o := o) hd rfl, ownOf_call (o := o) hd rfl]

/-- Zero rate curves quote what they store. -/
theorem ownZero_call {c : IRCurve D P} (hc : c.cls = .zero) (ho : c.base.origin = some o) (x : D) : c.zero cal x = c.call cal x := by
  simp only [IRCurve.zero, ho, pyDate, Py.ok_bind, IRCurve.rate, hc, IRCurve.zeroRateOf]
  split_ifs with h
  · rw [h.1]
  · rfl

/-- C173 (zero rates): discount factors over adjacent periods multiply, are positive, and those from the origin to the given dates are the
given zero rates compounded. -/
theorem C173_zero (hγ : Spec.Interpolates γ) (hn : (pts.map Prod.fst).Nodup) (hne : pts ≠ []) (ho : o?.or (pts.map Prod.fst).head? = some o)
    (hd : dc.Usable) (hτ : GoodDayCount (dc.fn cal)) :
    ∃ c : IRCurve D P, IRCurve.own cal .zero (pts.map Prod.fst) (pts.map Prod.snd) (.func γ r) o? dc tenor = .ok c ∧
      (∃ df : D → D → ℝ, DiscountLaws df ∧ (∀ same s t, (same = true → s = o) → c.factor cal same s t = .ok (df s t)) ∧
        ∀ p ∈ pts, df o p.1 = Real.exp (-(p.2 * dc.fn cal o p.1))) ∧
      ∀ p ∈ pts, c.discount cal p.1 = .ok (Real.exp (-(p.2 * dc.fn cal o p.1))) ∧ c.zero cal p.1 = .ok p.2 := by
  obtain ⟨c, v, h1, h2, h3, hc, -⟩ := C173_rates (r := r) (tenor := tenor) hγ hn hne ho hd hτ .zero
  obtain ⟨df, h4, h5, h6, h7⟩ := C28_zero h2 hc
  have key : ∀ p ∈ pts, df o p.1 = Real.exp (-(p.2 * dc.fn cal o p.1)) := fun p hp => by rw [h5, h3 p hp, hτ.self]; simp
  refine ⟨c, h1, ⟨df, h4, h6, key⟩, fun p hp => ⟨by rw [h7, key p hp], ?_⟩⟩
  rw [ownZero_call hc h2.origin, h2.call, h3 p hp]

/-- C173 (the other classes): given discount factors, short rates and cash rates are returned at the given dates. -/
theorem C173_given (hγ : Spec.Interpolates γ) (hn : (pts.map Prod.fst).Nodup) (hne : pts ≠ []) (ho : o?.or (pts.map Prod.fst).head? = some o)
    (hd : dc.Usable) (hτ : GoodDayCount (dc.fn cal)) (limit : ℕ) :
    (∃ c : IRCurve D P, IRCurve.own cal .discount (pts.map Prod.fst) (pts.map Prod.snd) (.func γ r) o? dc tenor = .ok c ∧
      ∀ p ∈ pts, c.discount cal p.1 = .ok p.2) ∧
    (∃ c : IRCurve D P, IRCurve.own cal .short (pts.map Prod.fst) (pts.map Prod.snd) (.func γ r) o? dc tenor = .ok c ∧
      ∀ p ∈ pts, ∀ same, c.shortRate cal same (limit + 1) p.1 = .ok p.2) ∧
    (∃ c : IRCurve D P, IRCurve.own cal .cash (pts.map Prod.fst) (pts.map Prod.snd) (.func γ r) o? dc tenor = .ok c ∧
      ∀ p ∈ pts, ∀ same e, cal.add p.1 (tenor.getD cal.threeMonths) = .ok e → c.cashRate cal same (limit + 1) p.1 none none = .ok p.2) := by
  refine ⟨?_, ?_, ?_⟩
  · obtain ⟨c, v, h1, h2, h3, hc, -⟩ := C173_rates (r := r) (tenor := tenor) hγ hn hne ho hd hτ .discount
    refine ⟨c, h1, fun p hp => ?_⟩
    simp [IRCurve.discount, h2.origin, pyDate, IRCurve.factor, hc, IRCurve.discountFactorOf, h2.call, h3 p hp]
  · obtain ⟨c, v, h1, h2, h3, hc, -⟩ := C173_rates (r := r) (tenor := tenor) hγ hn hne ho hd hτ .short
    exact ⟨c, h1, fun p hp same => by rw [C33_short hc, h2.call, h3 p hp]⟩
  · obtain ⟨c, v, h1, h2, h3, hc, -, ht, -⟩ := C173_rates (r := r) (tenor := tenor) hγ hn hne ho hd hτ .cash
    refine ⟨c, h1, fun p hp same e he => ?_⟩
    unfold IRCurve.cashRate
    simp [hc, IRCurve.forwardTenor, ht, he, h2.call, h3 p hp, IRCurve.cashStop]

/-- C173 (values): flows on the given dates are worth the same whatever the interpolation: their amounts discounted at the given zero rates. -/
theorem C173_value (hγ : Spec.Interpolates γ) (hn : (pts.map Prod.fst).Nodup) (hne : pts ≠ []) (ho : o?.or (pts.map Prod.fst).head? = some o)
    (hd : dc.Usable) (hτ : GoodDayCount (dc.fn cal)) :
    ∃ c : IRCurve D P, IRCurve.own cal .zero (pts.map Prod.fst) (pts.map Prod.snd) (.func γ r) o? dc tenor = .ok c ∧
      ∀ (w : World D P) (p : Product D) (L : List (D × ℝ)) (z : D → ℝ), Pays cal w o p L → (∀ q ∈ L, (q.1, z q.1) ∈ pts) → ∀ same,
        pv cal c.obj same (some o) p w = (.ok (L.map fun q => Real.exp (-(z q.1 * dc.fn cal o q.1)) * q.2).sum, w) := by
  obtain ⟨c, h1, ⟨df, h2, h3, h4⟩, -⟩ := C173_zero (r := r) (tenor := tenor) hγ hn hne ho hd hτ
  refine ⟨c, h1, fun w p L z hp hL same => C54_flows hp (df := fun t => Real.exp (-(z t * dc.fn cal o t))) fun q hq => ?_⟩
  have : c.obj.discountFactor cal same o q.1 = c.factor cal same o q.1 := rfl
  rw [this, h3 same o q.1 fun _ => rfl, h4 _ (hL q hq)]

/-- C173 (casts): zero rate and discount factor curves cast onto given dates are the same curve whatever the interpolation of the original. -/
theorem C173_cast (hγ : Spec.Interpolates γ) (hγ' : Spec.Interpolates γ') (hn : (pts.map Prod.fst).Nodup) (hne : pts ≠ [])
    (ho : o?.or (pts.map Prod.fst).head? = some o) (hd : dc.Usable) (hτ : GoodDayCount (dc.fn cal)) {cls : IRClass}
    (hcls : cls = .zero ∨ cls = .discount) {X : List D} (hX : ∀ x ∈ X, x ∈ pts.map Prod.fst) :
    ∃ c c' : IRCurve D P, IRCurve.own cal .zero (pts.map Prod.fst) (pts.map Prod.snd) (.func γ r) o? dc tenor = .ok c ∧
      IRCurve.own cal .zero (pts.map Prod.fst) (pts.map Prod.snd) (.func γ' r') o? dc tenor = .ok c' ∧
      ∀ limit same i origin dc' tenor', IRCurve.castOn cal cls limit same X c i origin dc' tenor' =
        IRCurve.castOn cal cls limit same X c' i origin dc' tenor' := by
  obtain ⟨c, v, h1, h2, h3, hc, -, -, h4, h5, -⟩ := C173_rates (r := r) (tenor := tenor) hγ hn hne ho hd hτ .zero
  obtain ⟨c', v', h1', h2', h3', hc', -, -, h4', h5', -⟩ := C173_rates (r := r') (tenor := tenor) hγ' hn hne ho hd hτ .zero
  refine ⟨c, c', h1, h1', fun limit same i origin dc' tenor' => ?_⟩
  have key : ∀ x ∈ X, cls.storage cal limit same c x = cls.storage cal limit same c' x := by
    intro x hx
    obtain ⟨p, hp, rfl⟩ := List.mem_map.1 (hX x hx)
    rcases hcls with rfl | rfl
    · show c.zero cal p.1 = c'.zero cal p.1
      rw [ownZero_call hc h2.origin, ownZero_call hc' h2'.origin, h2.call, h2'.call, h3 p hp, h3' p hp]
    · obtain ⟨df, -, a1, -, a2⟩ := C28_zero h2 hc
      obtain ⟨df', -, a1', -, a2'⟩ := C28_zero h2' hc'
      show c.discount cal p.1 = c'.discount cal p.1
      rw [a2, a2', a1, a1', h3 p hp, h3' p hp, hτ.self, mul_zero, mul_zero]
  unfold IRCurve.castOn
  rw [pyMap_congr key, h4, h4', h5, h5']

/-- C173 (credit curves): probabilities are clamped before the interpolation sees them, intensities are passed as they are; the curve takes these
values. -/
theorem C173_credit (hγ : Spec.Interpolates γ) (hn : (pts.map Prod.fst).Nodup) (hne : pts ≠ []) (ho : o?.or (pts.map Prod.fst).head? = some o)
    (hd : dc.Usable) (hτ : GoodDayCount (dc.fn cal)) {cls : CRClass} (hcls : cls ≠ .default ∧ cls ≠ .marginalDefault) :
    ∃ (c : CRCurve D P) (v : D → ℝ), CRCurve.own cal cls (pts.map Prod.fst) (pts.map Prod.snd) (.func γ r) o? dc tenor = .ok c ∧
      CreditAnswers cal c v (dc.fn cal) o ∧ (∀ p ∈ pts, v p.1 = if cls.isProb then clampProb p.2 else p.2) ∧ c.cls = cls ∧
      c.base.domain = pts.map Prod.fst ∧ c.tenor = tenor := by
  set f : ℝ → ℝ := fun y => if cls.isProb then clampProb y else y with hf
  set pts' : List (D × ℝ) := pts.map fun p => (p.1, f p.2) with hpts
  have e1 : pts'.map Prod.fst = pts.map Prod.fst := by simp [hpts, Function.comp_def]
  have e2 : pts'.map Prod.snd = (pts.map Prod.snd).map f := by simp [hpts, Function.comp_def]
  obtain ⟨g, h1, h2, h3, -⟩ := ownRate_eq (r := r) (tenor := tenor) (pts := pts') hγ (by rw [e1]; exact hn) (by simpa [hpts] using hne) (by rw [e1]; exact ho) hd hτ cls.dflt
  rw [e1] at h1 h2
  refine ⟨⟨ownOf o? dc cls.dflt tenor (pts.map Prod.fst) fun x => .ok (some (g x)), cls⟩, fun x => g (dc.fn cal o x), ?_,
    ⟨h2, fun s e => DayCountArg.eval_eq cal hd s e, hτ, ho⟩, fun p hp => h3 (p.1, f p.2) (List.mem_map.2 ⟨p, hp, rfl⟩), rfl, rfl, rfl⟩
  have hcomp : cls.complement (pts.map Prod.snd) = pts.map Prod.snd := by
    cases cls <;> simp_all [CRClass.complement]
  have hdata : (if cls.isProb then (pts.map Prod.snd).map clampProb else pts.map Prod.snd) = pts'.map Prod.snd := by
    rw [e2]
    by_cases hp : cls.isProb = true
    · rw [if_pos hp]; congr 1; funext y; simp [hf, hp]
    · rw [if_neg hp]; simp [hf, hp]
  unfold CRCurve.own
  simp only [hcomp, hdata]
  rw [if_neg, h1]
  · rfl
  · rintro ⟨hp, h⟩
    refine h fun y hy => ?_
    rw [← hdata, if_pos hp] at hy
    obtain ⟨x, -, rfl⟩ := List.mem_map.1 hy
    exact (clampProb_pos x).ne'

/-- C173 (default probabilities): the complement of the given values is what is clamped and interpolated. -/
theorem C173_default (i : InterpArg) (domain : List D) (q : List ℝ) (marg : Bool) :
    (fun c : CRCurve D P => c.toRateCurve.base.func) <$> CRCurve.own cal (if marg then .marginalDefault else .default) domain q i o? dc tenor =
      (fun c : CRCurve D P => c.toRateCurve.base.func) <$> CRCurve.own cal (if marg then .marginal else .survival) domain (q.map (1 - ·)) i o? dc tenor := by
  cases marg <;>
  · simp only [CRCurve.own, CRClass.complement, CRClass.isProb, if_true, if_false, Bool.false_eq_true, RateCurve.own, CRClass.dflt]
    split_ifs <;> first | rfl | skip
    cases OwnDateCurve.new cal domain ((q.map (1 - ·)).map clampProb) i o? dc _ <;> rfl

/-- C173 (volatilities): the same for volatility curves. -/
theorem C173_volatility (hγ : Spec.Interpolates γ) (hn : (pts.map Prod.fst).Nodup) (hne : pts ≠ []) (ho : o?.or (pts.map Prod.fst).head? = some o)
    (hd : dc.Usable) (hτ : GoodDayCount (dc.fn cal)) (cls : VolClass) (floor : Option ℝ) :
    ∃ (c : VolCurve D P) (g : ℝ → ℝ), VolCurve.own cal cls floor (pts.map Prod.fst) (pts.map Prod.snd) (.func γ r) o? dc tenor = .ok c ∧
      VolAnswers cal c (fun x => g (dc.fn cal o x)) (dc.fn cal) o ∧ TimeFunction c.toRateCurve g ∧ (∀ p ∈ pts, g (dc.fn cal o p.1) = p.2) ∧
      c.cls = cls ∧ c.floor = floor := by
  obtain ⟨g, h1, h2, h3, -⟩ := ownRate_eq (r := r) (tenor := tenor) hγ hn hne ho hd hτ cls.dflt
  refine ⟨⟨ownOf o? dc cls.dflt tenor (pts.map Prod.fst) fun x => .ok (some (g x)), cls, floor⟩, g, ?_,
    ⟨h2, fun s e => DayCountArg.eval_eq cal hd s e, hτ, ho⟩, ⟨fun x => rfl⟩, h3, rfl, rfl⟩
  unfold VolCurve.own
  rw [h1]; rfl

/-- C173 (classes of the package): the curve built with a class of the package given as a function, or with the default, answers as the curve of the package. -/
theorem C173_package (cls : IRClass) (s : Option FuncSpec) {i : InterpArg} (hi : i.call (libFit cls.dflt) = libFit (s.getD cls.dflt))
    (hd : dc.Usable) (ho : o?.or (pts.map Prod.fst).head? = some o) :
    (∃ e, IRCurve.own cal cls (pts.map Prod.fst) (pts.map Prod.snd) i o? dc tenor = .error e ∧
      IRCurve.new cal cls (pts.map Prod.fst) (pts.map Prod.snd) s o? dc tenor = .error e) ∨
    ∃ c c' : IRCurve D P, IRCurve.own cal cls (pts.map Prod.fst) (pts.map Prod.snd) i o? dc tenor = .ok c ∧
      IRCurve.new cal cls (pts.map Prod.fst) (pts.map Prod.snd) s o? dc tenor = .ok c' ∧
      (∀ x, c.call cal x = c'.call cal x) ∧ c.base.domain = c'.base.domain ∧ c.base.origin = c'.base.origin := by
  have hnew : IRCurve.new cal cls (pts.map Prod.fst) (pts.map Prod.snd) s o? dc tenor =
      (fun f => (⟨⟨⟨pts.map Prod.fst, o?, dc, s, cls.dflt, [], f⟩, tenor, none⟩, cls⟩ : IRCurve D P)) <$>
        Func.new (s.getD cls.dflt) ((sortPairs (timePts (dc.fn cal) o pts)).map Prod.fst) ((sortPairs (timePts (dc.fn cal) o pts)).map Prod.snd) := by
    unfold IRCurve.new DateCurve.new
    rw [if_neg (by simp)]
    simp only [DateCurve.update]
    rw [pyMap_ok (g := dc.fn cal o) fun x _ => time_eq cal (c := (⟨pts.map Prod.fst, o?, dc, s, cls.dflt, [], .base ⟨.no, ⟨[], []⟩, none⟩⟩ : DateCurve D)) ho hd x,
      Py.ok_bind, ← timePts_fst, ← timePts_snd (dc.fn cal) o pts]
    simp only [fitFunc, zip_unzip']
    cases Func.new (s.getD cls.dflt) ((sortPairs (timePts (dc.fn cal) o pts)).map Prod.fst) ((sortPairs (timePts (dc.fn cal) o pts)).map Prod.snd) <;> rfl
  unfold IRCurve.own
  rw [ownRate_run (o := o) hd ho, hi, hnew]
  unfold libFit
  cases Func.new (s.getD cls.dflt) ((sortPairs (timePts (dc.fn cal) o pts)).map Prod.fst) ((sortPairs (timePts (dc.fn cal) o pts)).map Prod.snd) with
  | error e => exact .inl ⟨e, rfl, rfl⟩
  | ok f =>
    refine .inr ⟨_, _, rfl, rfl, fun x => ?_, rfl, rfl⟩
    have ht := time_eq cal (c := (⟨pts.map Prod.fst, o?, dc, s, cls.dflt, [], f⟩ : DateCurve D)) ho hd x
    have hb : DateCurve.call cal ⟨pts.map Prod.fst, o?, dc, s, cls.dflt, [], f⟩ x = f.call (dc.fn cal o x) := by
      unfold DateCurve.call
      rw [show Dict.get ([] : Dict D ℝ) x = none from rfl]
      simp only [ht]
      rfl
    show (ownOf o? dc cls.dflt tenor (pts.map Prod.fst) f.call).call cal x = RateCurve.call cal ⟨⟨pts.map Prod.fst, o?, dc, s, cls.dflt, [], f⟩, tenor, none⟩ x
    rw [ownOf_call hd ho]
    unfold RateCurve.call
    rw [hb]
    cases f.call (dc.fn cal o x) with
    | error e => rfl
    | ok y => cases y <;> simp [pyNum]

/-- C173 (assignment): along every sequence of assignments the curve takes the values of the map receiving the same updates. -/
theorem C173_assign (hγ : Spec.Interpolates γ) (hd : dc.Usable) (hτ : GoodDayCount (dc.fn cal)) (start ops : List (D × ℝ)) (hne : start ≠ [])
    (hn : (start.map Prod.fst).Nodup) (o : D) (dflt : FuncSpec) :
    ∃ (c : RateCurve D P) (v : D → ℝ), (do
        let c ← RateCurve.own cal dflt (start.map Prod.fst) (start.map Prod.snd) (.func γ r) (some o) dc tenor
        ops.foldlM (fun c (kv : D × ℝ) => RateCurve.ownSetitem cal (.func γ r) c kv.1 kv.2) c) = .ok c ∧
      (∀ x, c.call cal x = .ok (v x)) ∧ (∀ x, x ∈ c.base.domain ↔ (assignMap (pointMap start) ops x).isSome) ∧
      (∀ x y, assignMap (pointMap start) ops x = some y → v x = y) := by
  let mk : List (D × ℝ) → (ℝ → ℝ) → RateCurve D P := fun pts g => ownOf (some o) dc dflt tenor (pts.map Prod.fst) fun x => .ok (some (g x))
  have hcall : ∀ pts g x, (mk pts g).call cal x = .ok (g (dc.fn cal o x)) := fun pts g x => by
    show (ownOf _ _ _ _ _ _).call cal x = _
    rw [ownOf_call (o := o) hd rfl]; rfl
  have hne' : ∀ pts : List (D × ℝ), pts ≠ [] → sortPairs (timePts (dc.fn cal) o pts) ≠ [] := fun pts h h' => h (by
    have := (sortPairs_perm (timePts (dc.fn cal) o pts)).length_eq
    rw [h'] at this
    simpa [timePts] using this.symm)
  have hstep : ∀ pts g, (pts.map Prod.fst).Nodup → (∀ p ∈ pts, g (dc.fn cal o p.1) = p.2) → ∀ k v, ∃ g',
      RateCurve.ownSetitem cal (.func γ r) (mk pts g) k v = .ok (mk (putPt pts k v) g') ∧ ∀ p ∈ putPt pts k v, g' (dc.fn cal o p.1) = p.2 := by
    intro pts g hn hg k v
    have hput : putPt pts k v ≠ [] := by
      intro h
      have := (putPt_mem (l := pts) (k := k) (v := v) (p := (k, v))).2 (.inl rfl)
      rw [h] at this
      exact absurd this (by simp)
    obtain ⟨g', h1, h2⟩ := hγ (sortPairs (timePts (dc.fn cal) o (putPt pts k v))) (hne' _ hput)
      (by rw [List.pairwise_map]; exact sortPairs_strict (timePts_nodup hτ o (putPt_nodup hn k v)))
    refine ⟨g', ?_, fun p hp => h2 (dc.fn cal o p.1, p.2) ((sortPairs_perm _).mem_iff.2 (List.mem_map.2 ⟨p, hp, rfl⟩))⟩
    have hv : pyMap ((mk pts g).call cal) (mk pts g).base.domain = .ok (pts.map Prod.snd) := by
      show pyMap _ (pts.map Prod.fst) = _
      rw [pyMap_map]
      exact pyMap_ok fun p hp => by rw [hcall, hg p hp]
    unfold RateCurve.ownSetitem
    rw [hv, Py.ok_bind]
    show (do
      let b ← OwnDateCurve.update cal ⟨pts.map Prod.fst, some o, dc, .func γ r, dflt, [], fun _ => .ok none⟩
        (setPoint (pts.map Prod.fst) (pts.map Prod.snd) k v).1 (setPoint (pts.map Prod.fst) (pts.map Prod.snd) k v).2
      Except.ok { mk pts g with base := b.date }) = _
    rw [setPoint_eq hn]
    unfold OwnDateCurve.update
    rw [pyMap_ok (g := dc.fn cal o) fun x _ => by
        simp [OwnDateCurve.time, OwnDateCurve.origin, pyDate, DayCountArg.eval_eq cal hd], Py.ok_bind, ← timePts_fst,
      ← timePts_snd (dc.fn cal) o (putPt pts k v), ownFit_points]
    show (do
      let b ← (do
        let (_, f) ← (fun g => ((sortPairs (timePts (dc.fn cal) o (putPt pts k v))).map Prod.fst, g)) <$> γ _ _
        Except.ok _)
      Except.ok _) = _
    rw [h1]
    rfl
  have hfold : ∀ (ops pts : List (D × ℝ)) g, (pts.map Prod.fst).Nodup → (∀ p ∈ pts, g (dc.fn cal o p.1) = p.2) →
      ∃ g', ops.foldlM (fun c (kv : D × ℝ) => RateCurve.ownSetitem cal (.func γ r) c kv.1 kv.2) (mk pts g) =
        .ok (mk (ops.foldl (fun l kv => putPt l kv.1 kv.2) pts) g') ∧
        ∀ p ∈ ops.foldl (fun l kv => putPt l kv.1 kv.2) pts, g' (dc.fn cal o p.1) = p.2 := by
    intro ops
    induction ops with
    | nil => intro pts g _ hg; exact ⟨g, rfl, hg⟩
    | cons q ops ih =>
      intro pts g hn hg
      obtain ⟨g', e, hg'⟩ := hstep pts g hn hg q.1 q.2
      rw [List.foldlM_cons, e, Py.ok_bind, List.foldl_cons]
      exact ih _ _ (putPt_nodup hn _ _) hg'
  obtain ⟨g, h1, -, h3, -⟩ := ownRate_eq (r := r) (tenor := tenor) (pts := start) (o? := some o) (o := o) hγ hn hne rfl hd hτ dflt
  obtain ⟨g', e, hg'⟩ := hfold ops start g hn h3
  obtain ⟨hm, hn', -⟩ := assign_points hn ops
  refine ⟨mk (ops.foldl (fun l kv => putPt l kv.1 kv.2) start) g', fun x => g' (dc.fn cal o x), ?_, hcall _ _, fun x => ?_, fun x y hxy => ?_⟩
  · rw [h1, Py.ok_bind]; exact e
  · rw [← hm, Option.isSome_iff_exists]
    simp only [pointMap_some hn']
    simp [mk, ownOf]
  · exact hg' (x, y) ((pointMap_some hn').1 (by rw [hm]; exact hxy))

/-- C173 (errors): what the interpolation raises while the curve is built is raised by the constructor; where its function raises, discount factors do,
and where it has no value there is a `TypeError`. -/
theorem C173_errors (cls : IRClass) (hd : dc.Usable) (ho : o?.or (pts.map Prod.fst).head? = some o) :
    (∀ e, γ ((sortPairs (timePts (dc.fn cal) o pts)).map Prod.fst) ((sortPairs (timePts (dc.fn cal) o pts)).map Prod.snd) = .error e →
      IRCurve.own cal cls (pts.map Prod.fst) (pts.map Prod.snd) (.func γ r) o? dc tenor = .error e) ∧
    ∀ g, γ ((sortPairs (timePts (dc.fn cal) o pts)).map Prod.fst) ((sortPairs (timePts (dc.fn cal) o pts)).map Prod.snd) = .ok g →
      ∃ c : IRCurve D P, IRCurve.own cal cls (pts.map Prod.fst) (pts.map Prod.snd) (.func γ r) o? dc tenor = .ok c ∧
        ∀ x, (∀ e, g (dc.fn cal o x) = .error e → c.call cal x = .error e) ∧ (g (dc.fn cal o x) = .ok none → c.call cal x = .error .type) ∧
          (∀ y, g (dc.fn cal o x) = .ok (some y) → c.call cal x = .ok y) := by
  have hrun : IRCurve.own cal cls (pts.map Prod.fst) (pts.map Prod.snd) (.func γ r) o? dc tenor =
      (fun g => (⟨ownOf o? dc cls.dflt tenor (pts.map Prod.fst) g, cls⟩ : IRCurve D P)) <$>
        γ ((sortPairs (timePts (dc.fn cal) o pts)).map Prod.fst) ((sortPairs (timePts (dc.fn cal) o pts)).map Prod.snd) := by
    unfold IRCurve.own
    rw [ownRate_run (o := o) hd ho]
    show (do let c ← _ <$> γ _ _; _) = _
    cases γ ((sortPairs (timePts (dc.fn cal) o pts)).map Prod.fst) ((sortPairs (timePts (dc.fn cal) o pts)).map Prod.snd) <;> rfl
  refine ⟨fun e h => by rw [hrun, h]; rfl, fun g h => ⟨_, by rw [hrun, h]; rfl, fun x => ?_⟩⟩
  have hc : IRCurve.call cal (⟨ownOf o? dc cls.dflt tenor (pts.map Prod.fst) g, cls⟩ : IRCurve D P) x = (do pyNum (← g (dc.fn cal o x))) := ownOf_call hd ho g x
  exact ⟨fun e h => by rw [hc, h]; rfl, fun h => by rw [hc, h]; rfl, fun y h => by rw [hc, h]; rfl⟩

end

/-! ### Examples -/

/-- A function through its points that is `z` elsewhere. -/
noncomputable def exSpikesAt (z : ℝ) : Fit := fun xs ys => .ok fun x => .ok (some (((xs.zip ys).lookup x).getD z))

theorem exSpikesAt_interpolates (z : ℝ) : Spec.Interpolates (exSpikesAt z) := by
  intro pts _ hs
  refine ⟨fun x => (((pts.map Prod.fst).zip (pts.map Prod.snd)).lookup x).getD z, rfl, fun p hp => ?_⟩
  have hn : (pts.map Prod.fst).Nodup := hs.imp fun {a b} => ne_of_lt
  have := (pointMap_some hn (x := p.1) (y := p.2)).2 hp
  unfold pointMap at this
  simp only [zip_unzip', this]; rfl

/-- C173 (violation): survival probabilities are clamped at the given dates only: with an interpolation leaving the unit interval between them
the curve states a survival probability of 2 in between. -/
theorem C173_probability_violated : Spec.Interpolates (exSpikesAt 2) ∧ ∃ c : CRCurve ℤ ℤ,
    CRCurve.own dayCal .survival [0, 1000] [1, 1 / 2] (.func (exSpikesAt 2) none) none .default none = .ok c ∧ c.survivalProb dayCal 500 = .ok 2 := by
  refine ⟨exSpikesAt_interpolates 2, ?_⟩
  set f : ℝ → ℝ := clampProb with hf
  have hn : ([((0 : ℤ), f 1), (1000, f (1 / 2))].map Prod.fst).Nodup := by simp
  obtain ⟨g, h1, h2, h3, h4⟩ := ownRate_eq (cal := dayCal) (γ := exSpikesAt 2) (r := none) (tenor := none) (pts := [((0 : ℤ), f 1), (1000, f (1 / 2))]) (o? := none) (o := 0)
    (dc := .default) (exSpikesAt_interpolates 2) hn (by simp) rfl trivial goodDayCount_int CRClass.survival.dflt
  refine ⟨⟨ownOf none .default CRClass.survival.dflt none [0, 1000] fun x => .ok (some (g x)), .survival⟩, ?_, ?_⟩
  · unfold CRCurve.own
    simp only [CRClass.complement, CRClass.isProb, if_true]
    rw [if_neg]
    · show (do let c ← RateCurve.own dayCal CRClass.survival.dflt [0, 1000] [f 1, f (1 / 2)] _ _ _ _; _) = _
      have h1' : RateCurve.own dayCal CRClass.survival.dflt [0, 1000] [f 1, f (1 / 2)] (.func (exSpikesAt 2) none) none .default none = _ := h1
      rw [h1']; rfl
    · rintro ⟨-, h⟩
      refine h fun y hy => ?_
      obtain ⟨x, -, rfl⟩ := List.mem_map.1 hy
      exact (clampProb_pos x).ne'
  · have hc := h2 500
    have hg : g (DayCountArg.fn dayCal .default 0 500) = 2 := by
      have := congrFun (Except.ok.inj h4) (DayCountArg.fn dayCal .default 0 500)
      have := Option.some.inj (Except.ok.inj this)
      rw [← this, zip_unzip']
      have hl : (sortPairs (timePts (DayCountArg.fn dayCal .default) 0 [((0 : ℤ), f 1), (1000, f (1 / 2))])).lookup (DayCountArg.fn dayCal .default 0 500) = none := by
        rw [List.lookup_eq_none_iff]
        intro p hp
        have := (sortPairs_perm _).mem_iff.1 hp
        simp only [timePts, List.map_cons, List.map_nil, List.mem_cons, List.not_mem_nil, or_false] at this
        rcases this with rfl | rfl <;> simp [DayCountArg.fn, dayCal]
      rw [hl]; rfl
    simp only [CRCurve.survivalProb]
    rw [show DateCurve.origin _ = some (0 : ℤ) from rfl]
    simp only [pyDate, Py.ok_bind, CRCurve.factor, CRCurve.survivalFactorOf, if_true]
    rw [hg] at hc
    exact hc

/-! ### The hypotheses can be met: each theorem applied -/

example := C173_rates (cal := dayCal) (γ := exSpikesAt 0.03) (r := none) (tenor := none) (pts := [(0, 0.01), (365, 0.02)]) (o? := none) (o := 0) (dc := .default)
  (exSpikesAt_interpolates _) (by simp) (by simp) rfl trivial goodDayCount_int .cash
example := C173_zero (cal := dayCal) (γ := exSpikesAt 0.03) (r := none) (tenor := none) (pts := [(0, 0.01), (365, 0.02)]) (o? := none) (o := 0) (dc := .default)
  (exSpikesAt_interpolates _) (by simp) (by simp) rfl trivial goodDayCount_int
example := C173_given (cal := dayCal) (γ := exSpikesAt 0.03) (r := none) (tenor := none) (pts := [(0, 0.01), (365, 0.02)]) (o? := none) (o := 0) (dc := .default)
  (exSpikesAt_interpolates _) (by simp) (by simp) rfl trivial goodDayCount_int 0
example := C173_value (cal := dayCal) (γ := exSpikesAt 0.03) (r := none) (tenor := none) (pts := [(0, 0.01), (365, 0.02)]) (o? := none) (o := 0) (dc := .default)
  (exSpikesAt_interpolates _) (by simp) (by simp) rfl trivial goodDayCount_int
example := C173_cast (cal := dayCal) (γ := exSpikesAt 0.03) (γ' := exSpikesAt 7) (r := none) (r' := none) (tenor := none) (pts := [(0, 0.01), (365, 0.02)]) (o? := none) (o := 0)
  (dc := .default) (exSpikesAt_interpolates _) (exSpikesAt_interpolates _) (by simp) (by simp) rfl trivial goodDayCount_int (.inr rfl) (X := [365]) (by simp)
example := C173_credit (cal := dayCal) (γ := exSpikesAt 0.03) (r := none) (tenor := none) (pts := [(0, 1), (365, 0.9)]) (o? := none) (o := 0) (dc := .default)
  (exSpikesAt_interpolates _) (by simp) (by simp) rfl trivial goodDayCount_int (cls := .survival) (by decide)
example := C173_volatility (cal := dayCal) (γ := exSpikesAt 0.03) (r := none) (tenor := none) (pts := [(0, 0.1), (365, 0.2)]) (o? := none) (o := 0) (dc := .default)
  (exSpikesAt_interpolates _) (by simp) (by simp) rfl trivial goodDayCount_int .terminal none
example := C173_package (cal := dayCal) (tenor := none) (pts := [(0, 0.1), (365, 0.2)]) (o? := none) (o := 0) (dc := .default) .zero none (i := .default) rfl trivial rfl
example := C173_assign (cal := dayCal) (γ := exSpikesAt 0.03) (r := none) (tenor := none) (dc := .default) (exSpikesAt_interpolates _) trivial goodDayCount_int
  [(0, 0.01), (365, 0.02)] [(180, 0.03), (0, 0.04)] (by simp) (by simp) 0 linearScheme

example := C173_order (cal := dayCal) (tenor := none) (dc := .default) (pts := [(0, 0.01), (365, 0.02)]) (pts' := [(365, 0.02), (0, 0.01)]) (List.Perm.swap _ _ _) trivial
  .short (.func (exSpikesAt 0.03) none) 0

/-- An interpolation that refuses all points, and one without values. -/
example : (IRCurve.own dayCal .zero [0, 365] [0.01, 0.02] (.func (fun _ _ => .error .value) none) none .default none : Py (IRCurve ℤ ℤ)) = .error .value :=
  (C173_errors (cal := dayCal) (γ := fun _ _ => .error .value) (r := none) (tenor := none) (pts := [(0, 0.01), (365, 0.02)]) (o? := none) (o := 0) (dc := .default) .zero trivial rfl).1
    _ rfl

example : ∃ c : IRCurve ℤ ℤ, IRCurve.own dayCal .zero [0, 365] [0.01, 0.02] (.func (fun _ _ => .ok fun _ => .ok none) none) none .default none = .ok c ∧
    ∀ x, c.call dayCal x = .error .type := by
  obtain ⟨c, h1, h2⟩ := (C173_errors (cal := dayCal) (γ := fun _ _ => .ok fun _ => .ok none) (r := none) (tenor := none) (pts := [(0, 0.01), (365, 0.02)]) (o? := none) (o := 0)
    (dc := .default) .zero trivial rfl).2 _ rfl
  exact ⟨c, h1, fun x => (h2 x).2.1 rfl⟩

end Dcf
