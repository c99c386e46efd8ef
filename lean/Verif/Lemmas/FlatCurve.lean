import Verif.Lemmas.Pricer
import Verif.Props.RateCast

/-! # One point zero rate curves -/

set_option linter.unusedSectionVars false
set_option linter.unusedVariables false

namespace Dcf

open Spec

section
variable {D P : Type} [LinearOrder D] (cal : Cal D P)

/-- The one point zero rate curve at `v`. -/
noncomputable def flatZero (o? : Option D) (dc : DayCountArg D) (tenor : Option P) (v : D) (y : ℝ) : IRCurve D P :=
  irOf cal (o?.getD v) o? dc none .zero tenor [(v, y)]

theorem or_head (o? : Option D) (v : D) (y : ℝ) : o?.or ([(v, y)].map Prod.fst).head? = some (o?.getD v) := by
  cases o? <;> rfl

theorem linVal_single (τ : D → D → ℝ) (o v : D) (y : ℝ) (x : D) : linVal τ o [(v, y)] x = y := by
  simp [linVal, timePts, sortPairs, flin]

theorem not_log : ¬ ((none : Option FuncSpec).getD IRClass.zero.dflt).isLog = true := by
  simp [IRClass.dflt, linearScheme, FuncSpec.isLog, Kind.isLog]

theorem flatZero_new {o? : Option D} {dc : DayCountArg D} {tenor : Option P} (hd : dc.Usable)
    (hτ : GoodDayCount (dc.fn cal)) (v : D) (y : ℝ) :
    IRCurve.new cal .zero [v] [y] none o? dc tenor = .ok (flatZero cal o? dc tenor v y) :=
  IRCurve_new_eq cal (pts := [(v, y)]) (cls := .zero) (i := none) (by simp) (fun h => absurd h not_log)
    (or_head o? v y) hd hτ

theorem flatZero_call {o? : Option D} {dc : DayCountArg D} {tenor : Option P} (hd : dc.Usable)
    (hτ : GoodDayCount (dc.fn cal)) (v : D) (y : ℝ) (x : D) : (flatZero cal o? dc tenor v y).call cal x = .ok y := by
  rw [flatZero, irOf_linear cal (by rfl) (or_head o? v y) hd hτ (by simp) (by simp), linVal_single]

theorem flatZero_factor {o? : Option D} {dc : DayCountArg D} {tenor : Option P} (hd : dc.Usable)
    (hτ : GoodDayCount (dc.fn cal)) (v : D) (y : ℝ) (same : Bool) (s t : D) (h : same = true → s = o?.getD v) :
    (flatZero cal o? dc tenor v y).factor cal same s t = .ok (Real.exp (-(y * dc.fn cal s t))) := by
  have hc := flatZero_call cal (o? := o?) (tenor := tenor) hd hτ v y
  have hdc (a b : D) : (flatZero cal o? dc tenor v y).dayCount cal a b = .ok (dc.fn cal a b) := irOf_dayCount cal hd a b
  have ho : (flatZero cal o? dc tenor v y).base.origin = some (o?.getD v) := irOf_origin cal (or_head o? v y)
  by_cases hst : s = t
  · subst hst
    rw [C28_empty (by simp [flatZero, irOf]), hτ.self]
    simp
  · have hr : (flatZero cal o? dc tenor v y).rate cal same s t = .ok y := by
      simp only [IRCurve.rate, show (flatZero cal o? dc tenor v y).cls = .zero from rfl, IRCurve.zeroRateOf, hst, false_and,
        if_false]
      cases same with
      | true => simp [hc]
      | false =>
        simp only [Bool.false_eq_true, if_false, IRCurve.zeroForward, ho, pyDate, hc, hdc, Py.ok_bind]
        rw [pyDiv_ok (hτ.ne_zero hst)]
        congr 1
        rw [div_eq_iff (hτ.ne_zero hst), ← hτ.add (o?.getD v) s t]
        ring
    simp only [IRCurve.factor, show (flatZero cal o? dc tenor v y).cls = .zero from rfl, if_neg hst, hr, hdc, Py.ok_bind,
      continuousCompounding]
    congr 2
    ring

theorem flatZero_set {o? : Option D} {dc : DayCountArg D} {tenor : Option P} (hd : dc.Usable)
    (hτ : GoodDayCount (dc.fn cal)) (v : D) (y z : ℝ) :
    (flatZero cal o? dc tenor v y).toRateCurve.setitem cal v z = .ok (flatZero cal o? dc tenor v z).toRateCurve := by
  have hc : (flatZero cal o? dc tenor v y).toRateCurve.call cal v = .ok y := flatZero_call cal hd hτ v y v
  unfold RateCurve.setitem DateCurve.setitemWith
  have hdom : (flatZero cal o? dc tenor v y).base.domain = [v] := rfl
  have hset : setPoint [v] [y] v z = ([(v, z)].map Prod.fst, [(v, z)].map Prod.snd) := by simp [setPoint]
  rw [hdom, show pyMap ((flatZero cal o? dc tenor v y).toRateCurve.call cal) [v] = .ok [y] by
    simp [hc, pyMap], Py.ok_bind]
  simp only [hset]
  rw [update_eq cal (c := (flatZero cal o? dc tenor v y).base) (pts := [(v, z)]) (o := o?.getD v) (or_head o? v y) hd (by simp [timePts]) (fun h => absurd h not_log)]
  rfl

end

end Dcf
