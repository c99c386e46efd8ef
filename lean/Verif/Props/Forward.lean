import Verif.Lemmas.Curve
import Mathlib.Tactic.NormNum

/-! # Forward curves: C27, C74, C76 -/

set_option linter.unusedSectionVars false
set_option linter.unusedSimpArgs false
set_option linter.unusedVariables false

namespace Dcf

open Spec

section Forward
variable {D P : Type} [LinearOrder D] (cal : Cal D P)

/-- Requirements on the points of a forward curve: distinct dates, at least one, positive prices if
the interpolation takes logarithms. -/
structure GoodPoints (pts : List (D × ℝ)) (s : FuncSpec) (o : D) : Prop where
  ne : pts ≠ []
  nodup : (pts.map Prod.fst).Nodup
  pos : s.isLog → ∀ p ∈ pts, 0 < p.2
  nonzero : s.needsNonzero → ∃ p ∈ pts, p.1 ≠ o

private theorem last_map {pts : List (D × ℝ)} (h : pts ≠ []) :
    pyLast (pts.map Prod.fst) = .ok (pts.getLast h).1 := by
  rw [pyLast_map, pyLast_getLast h]; rfl

private theorem base_new {pts : List (D × ℝ)} {i : Option FuncSpec} {o? : Option D} {dc : DayCountArg D} {o : D}
    (hp : GoodPoints pts (i.getD logLinearScheme) o) (ho : o?.or (pts.map Prod.fst).head? = some o)
    (hd : dc.Usable) (hτ : GoodDayCount (dc.fn cal)) :
    DateCurve.new cal (pts.map Prod.fst) (pts.map Prod.snd) i o? dc logLinearScheme =
      .ok (dateCurveOf (dc.fn cal) o o? dc i logLinearScheme pts) :=
  DateCurve_new_eq cal i o? dc logLinearScheme ho hd (timePts_nodup hτ o hp.nodup) hp.pos

private theorem base_last {pts : List (D × ℝ)} {i : Option FuncSpec} {o? : Option D} {dc : DayCountArg D} {o : D}
    (hp : GoodPoints pts (i.getD logLinearScheme) o) (ho : o?.or (pts.map Prod.fst).head? = some o)
    (hd : dc.Usable) (hτ : GoodDayCount (dc.fn cal)) :
    (dateCurveOf (dc.fn cal) o o? dc i logLinearScheme pts).call cal (pts.getLast hp.ne).1 =
      .ok (some (pts.getLast hp.ne).2) :=
  DateCurve_values cal (dateCurveOf_origin ho) hd hτ rfl hp.nodup rfl hp.pos hp.nonzero (List.getLast_mem hp.ne)

/-- C27 (flat yield): up to the last date the price is the interpolated one, from the last date on
it is the last price grown continuously at the yield; both agree at the last date. -/
theorem C27_flat (pts : List (D × ℝ)) (i : Option FuncSpec) (o? : Option D) (o : D) (dc : DayCountArg D)
    (hp : GoodPoints pts (i.getD logLinearScheme) o) (ho : o?.or (pts.map Prod.fst).head? = some o)
    (hd : dc.Usable) (hτ : GoodDayCount (dc.fn cal)) (y : ℝ) :
    ∃ c b, ForwardCurve.new cal (pts.map Prod.fst) (pts.map Prod.snd) i o? dc (.flat y) = .ok c ∧
      DateCurve.new cal (pts.map Prod.fst) (pts.map Prod.snd) i o? dc logLinearScheme = .ok b ∧
      (∀ T, T ≤ (pts.getLast hp.ne).1 → c.price cal T = b.call cal T) ∧
      ∀ T, (pts.getLast hp.ne).1 ≤ T → c.price cal T =
        .ok (some ((pts.getLast hp.ne).2 * Real.exp (y * dc.fn cal (pts.getLast hp.ne).1 T))) := by
  set b := dateCurveOf (dc.fn cal) o o? dc i logLinearScheme pts with hb
  have hbo : b.origin = some o := dateCurveOf_origin ho
  have hlast : pyLast b.domain = .ok (pts.getLast hp.ne).1 := last_map hp.ne
  have hval := base_last cal hp ho hd hτ
  refine ⟨⟨b, .function fun x => do .ok (Real.exp (-(← b.time cal x) * y))⟩, b, ?_,
    base_new cal hp ho hd hτ, fun T hT => ?_, fun T hT => ?_⟩
  · simp only [ForwardCurve.new]
    rw [base_new cal hp ho hd hτ, Py.ok_bind, ← hb]
    simp [hbo]
  · simp [ForwardCurve.price, hlast, hT]
  · rcases hT.eq_or_lt with rfl | hT
    · simp only [ForwardCurve.price, hlast, Py.ok_bind, le_refl, if_true]
      rw [hval, hτ.self]; simp
    · simp only [ForwardCurve.price, hlast, Py.ok_bind, hT.not_ge, if_false]
      rw [hval, Py.ok_bind, time_eq cal hbo hd, time_eq cal hbo hd]
      simp only [Py.ok_bind, pyNum, pyDiv, Real.exp_ne_zero, if_false, div_eq_zero_iff, or_self, Py.map_ok]
      congr 2
      have e : b.dc = dc := rfl
      rw [e, ← Real.exp_sub, div_eq_mul_inv, ← Real.exp_neg, ← hτ.add o (pts.getLast hp.ne).1 T]
      congr 2; ring

/-- C27 (interest rate curve): beyond the last date the price is the last price divided by the
discount factor. -/
theorem C27_discount (pts : List (D × ℝ)) (i : Option FuncSpec) (o? : Option D) (o : D) (dc : DayCountArg D)
    (hp : GoodPoints pts (i.getD logLinearScheme) o) (ho : o?.or (pts.map Prod.fst).head? = some o)
    (hd : dc.Usable) (hτ : GoodDayCount (dc.fn cal)) (df : D → D → Py ℝ) :
    ∃ c b, ForwardCurve.new cal (pts.map Prod.fst) (pts.map Prod.snd) i o? dc (.curve (.discount df)) = .ok c ∧
      DateCurve.new cal (pts.map Prod.fst) (pts.map Prod.snd) i o? dc logLinearScheme = .ok b ∧
      (∀ T, T ≤ (pts.getLast hp.ne).1 → c.price cal T = b.call cal T) ∧
      (c.price cal (pts.getLast hp.ne).1 = .ok (some (pts.getLast hp.ne).2)) ∧
      ∀ T, (pts.getLast hp.ne).1 < T → ∀ v, df (pts.getLast hp.ne).1 T = .ok v →
        c.price cal T = if v = 0 then .error .zeroDivision else .ok (some ((pts.getLast hp.ne).2 / v)) := by
  set b := dateCurveOf (dc.fn cal) o o? dc i logLinearScheme pts with hb
  have hlast : pyLast b.domain = .ok (pts.getLast hp.ne).1 := last_map hp.ne
  have hval := base_last cal hp ho hd hτ
  refine ⟨⟨b, .discount df⟩, b, ?_, base_new cal hp ho hd hτ, fun T hT => ?_, ?_, fun T hT v hv => ?_⟩
  · simp only [ForwardCurve.new]
    rw [base_new cal hp ho hd hτ, Py.ok_bind, ← hb]
  · simp [ForwardCurve.price, hlast, hT]
  · simp only [ForwardCurve.price, hlast, Py.ok_bind, le_refl, if_true]; exact hval
  · simp only [ForwardCurve.price, hlast, Py.ok_bind, hT.not_ge, if_false]
    rw [hval, Py.ok_bind, hv, Py.ok_bind]
    simp only [pyNum, Py.ok_bind, pyDiv]
    split_ifs <;> rfl

/-- The documented extrapolation with a yield curve function `g`: `p_T = p_n * g(T) / g(t_n)`. -/
def DocumentedFunctionYield (price : D → Py (Option ℝ)) (tn : D) (pn : ℝ) (g : D → ℝ) : Prop :=
  ∀ T, tn < T → price T = .ok (some (pn * g T / g tn))

/-- C27 (function, what holds): the code extrapolates with the inverse ratio. -/
theorem C27_function_partial (pts : List (D × ℝ)) (i : Option FuncSpec) (o? : Option D) (o : D) (dc : DayCountArg D)
    (hp : GoodPoints pts (i.getD logLinearScheme) o) (ho : o?.or (pts.map Prod.fst).head? = some o)
    (hd : dc.Usable) (hτ : GoodDayCount (dc.fn cal)) (g : D → ℝ) (hg : ∀ x, g x ≠ 0) :
    ∃ c b, ForwardCurve.new cal (pts.map Prod.fst) (pts.map Prod.snd) i o? dc
        (.curve (.function fun x => .ok (g x))) = .ok c ∧
      DateCurve.new cal (pts.map Prod.fst) (pts.map Prod.snd) i o? dc logLinearScheme = .ok b ∧
      (∀ T, T ≤ (pts.getLast hp.ne).1 → c.price cal T = b.call cal T) ∧
      ∀ T, (pts.getLast hp.ne).1 ≤ T →
        c.price cal T = .ok (some ((pts.getLast hp.ne).2 * g (pts.getLast hp.ne).1 / g T)) := by
  set b := dateCurveOf (dc.fn cal) o o? dc i logLinearScheme pts with hb
  have hlast : pyLast b.domain = .ok (pts.getLast hp.ne).1 := last_map hp.ne
  have hval := base_last cal hp ho hd hτ
  refine ⟨⟨b, .function fun x => .ok (g x)⟩, b, ?_, base_new cal hp ho hd hτ, fun T hT => ?_, fun T hT => ?_⟩
  · simp only [ForwardCurve.new]
    rw [base_new cal hp ho hd hτ, Py.ok_bind, ← hb]
  · simp [ForwardCurve.price, hlast, hT]
  · rcases hT.eq_or_lt with rfl | hT
    · simp only [ForwardCurve.price, hlast, Py.ok_bind, le_refl, if_true]
      rw [hval, mul_div_assoc, div_self (hg _), mul_one]
    · simp only [ForwardCurve.price, hlast, Py.ok_bind, hT.not_ge, if_false]
      rw [hval, Py.ok_bind]
      have h1 := hg T
      have h2 := hg (pts.getLast hp.ne).1
      simp only [Py.ok_bind, pyNum, pyDiv, h1, h2, if_false, div_eq_zero_iff, or_self, Py.map_ok]
      congr 2
      field_simp

end Forward

/-- C27 (refuted for functions): the price 1 at date 0, extrapolated with the yield curve function
`exp`, is not the documented one. -/
theorem C27_function_violated : ∃ c : ForwardCurve ℝ,
    ForwardCurve.new floatCal [0] [1] none none .default (.curve (.function fun x => .ok (Real.exp x))) = .ok c ∧
    ¬ DocumentedFunctionYield (c.price floatCal) 0 1 Real.exp := by
  have hp : GoodPoints [((0 : ℝ), (1 : ℝ))] ((none : Option FuncSpec).getD logLinearScheme) 0 :=
    ⟨by simp, by simp, by simp, by simp [logLinearScheme, FuncSpec.needsNonzero, Kind.isRate]⟩
  obtain ⟨c, b, hc, -, -, hT⟩ := C27_function_partial floatCal [((0 : ℝ), (1 : ℝ))] none none 0 .default hp rfl
    trivial goodDayCount_real Real.exp Real.exp_ne_zero
  refine ⟨c, hc, fun h => ?_⟩
  have h1 := h 1 one_pos
  rw [hT 1 (by simp)] at h1
  simp only [List.getLast_singleton, Real.exp_zero, Except.ok.injEq, Option.some.injEq, one_mul, div_one,
    one_div] at h1
  have h2 : (1 : ℝ) < Real.exp 1 := by simp
  have h3 : (Real.exp 1)⁻¹ < 1 := inv_lt_one_of_one_lt₀ h2
  linarith

/-! ## C74: order of the points -/

/-- C74 (refuted): the points (1,10), (2,20) given in descending order make the curve return 10 at
date 2. -/
theorem C74_order_violated : ∃ c c' : ForwardCurve ℝ,
    ForwardCurve.new floatCal [1, 2] [10, 20] none (some 0) .default (.flat 0) = .ok c ∧
    ForwardCurve.new floatCal [2, 1] [20, 10] none (some 0) .default (.flat 0) = .ok c' ∧
    c.price floatCal 2 = .ok (some 20) ∧ c'.price floatCal 2 = .ok (some 10) := by
  have hp : GoodPoints [((1 : ℝ), (10 : ℝ)), (2, 20)] ((none : Option FuncSpec).getD logLinearScheme) 0 :=
    ⟨by simp, by norm_num, by norm_num, by simp [logLinearScheme, FuncSpec.needsNonzero, Kind.isRate]⟩
  have hp' : GoodPoints [((2 : ℝ), (20 : ℝ)), (1, 10)] ((none : Option FuncSpec).getD logLinearScheme) 0 :=
    ⟨by simp, by norm_num, by norm_num, by simp [logLinearScheme, FuncSpec.needsNonzero, Kind.isRate]⟩
  obtain ⟨c, b, hc, -, -, hT⟩ := C27_flat floatCal _ none (some 0) 0 .default hp rfl trivial goodDayCount_real 0
  obtain ⟨c', b', hc', -, -, hT'⟩ := C27_flat floatCal _ none (some 0) 0 .default hp' rfl trivial goodDayCount_real 0
  refine ⟨c, c', hc, hc', ?_, ?_⟩
  · rw [hT 2 (by simp)]; simp
  · rw [hT' 2 (by simp)]; simp

/-- C74 (what holds): the order does not matter as long as the last given date is the same. -/
theorem C74_same_last_partial {D P : Type} [LinearOrder D] (cal : Cal D P) (pts pts' : List (D × ℝ))
    (hperm : pts.Perm pts') (i : Option FuncSpec) (o : D) (dc : DayCountArg D)
    (hn : (pts.map Prod.fst).Nodup) (hpos : (i.getD logLinearScheme).isLog → ∀ p ∈ pts, 0 < p.2)
    (hd : dc.Usable) (hτ : GoodDayCount (dc.fn cal))
    (hlast : (pts.map Prod.fst).getLast? = (pts'.map Prod.fst).getLast?) (y : YieldArg D) :
    ∃ c c', ForwardCurve.new cal (pts.map Prod.fst) (pts.map Prod.snd) i (some o) dc y = .ok c ∧
      ForwardCurve.new cal (pts'.map Prod.fst) (pts'.map Prod.snd) i (some o) dc y = .ok c' ∧
      ∀ T, c.price cal T = c'.price cal T := by
  have hn' : (pts'.map Prod.fst).Nodup := (hperm.map Prod.fst).nodup_iff.1 hn
  have hpos' : (i.getD logLinearScheme).isLog → ∀ p ∈ pts', 0 < p.2 :=
    fun h p hp => hpos h p (hperm.mem_iff.2 hp)
  have e := DateCurve_new_eq cal i (some o) dc logLinearScheme (pts := pts) (o := o) rfl hd (timePts_nodup hτ o hn) hpos
  have e' := DateCurve_new_eq cal i (some o) dc logLinearScheme (pts := pts') (o := o) rfl hd
    (timePts_nodup hτ o hn') hpos'
  set b := dateCurveOf (dc.fn cal) o (some o) dc i logLinearScheme pts with hb
  set b' := dateCurveOf (dc.fn cal) o (some o) dc i logLinearScheme pts' with hb'
  have hbo : b.origin = some o := rfl
  have hbo' : b'.origin = some o := rfl
  have hbd : b.dc = dc := rfl
  have hbd' : b'.dc = dc := rfl
  have hcall : ∀ x, b.call cal x = b'.call cal x := fun x => by
    rw [hb, hb', dateCurveOf_call cal rfl hd, dateCurveOf_call cal rfl hd,
      funcOf_perm _ (timePts_perm (dc.fn cal) o hperm) (timePts_nodup hτ o hn)]
  have hl : pyLast b.domain = pyLast b'.domain := pyLast_congr hlast
  have htime : ∀ x, b.time cal x = b'.time cal x := fun x => by
    rw [time_eq cal hbo hd, time_eq cal hbo' hd, hbd, hbd']
  have hprice : ∀ (z : YieldCurve D) T, ForwardCurve.price cal ⟨b, z⟩ T = ForwardCurve.price cal ⟨b', z⟩ T := by
    intro z T
    simp only [ForwardCurve.price, hl, hcall]
  cases y with
  | flat r =>
    refine ⟨_, _, by simp only [ForwardCurve.new]; rw [e]; simp [hbo]; rfl,
      by simp only [ForwardCurve.new]; rw [e']; simp [hbo']; rfl, fun T => ?_⟩
    rw [hprice]
    simp only [htime]
  | int r =>
    exact ⟨_, _, by simp only [ForwardCurve.new]; rw [e]; rfl, by simp only [ForwardCurve.new]; rw [e']; rfl,
      fun T => hprice _ T⟩
  | curve z =>
    exact ⟨_, _, by simp only [ForwardCurve.new]; rw [e]; rfl, by simp only [ForwardCurve.new]; rw [e']; rfl,
      fun T => hprice _ T⟩

/-! ## C76: whole-number yields -/

/-- C76 (refuted): with an integer as flat yield every price beyond the last date is a `TypeError`. -/
theorem C76_int_yield_violated {D P : Type} [LinearOrder D] (cal : Cal D P) (pts : List (D × ℝ)) (i : Option FuncSpec)
    (o? : Option D) (o : D) (dc : DayCountArg D) (hp : GoodPoints pts (i.getD logLinearScheme) o)
    (ho : o?.or (pts.map Prod.fst).head? = some o) (hd : dc.Usable) (hτ : GoodDayCount (dc.fn cal)) (n : ℤ) :
    ∃ c, ForwardCurve.new cal (pts.map Prod.fst) (pts.map Prod.snd) i o? dc (.int n) = .ok c ∧
      ∀ T, (pts.getLast hp.ne).1 < T → c.price cal T = .error .type := by
  refine ⟨⟨dateCurveOf (dc.fn cal) o o? dc i logLinearScheme pts, .function fun _ => .error .type⟩, ?_,
    fun T hT => ?_⟩
  · simp only [ForwardCurve.new]
    rw [base_new cal hp ho hd hτ]; rfl
  · have hlast : pyLast (dateCurveOf (dc.fn cal) o o? dc i logLinearScheme pts).domain =
      .ok (pts.getLast hp.ne).1 := last_map hp.ne
    simp only [ForwardCurve.price, hlast, Py.ok_bind, hT.not_ge, if_false]
    rw [base_last cal hp ho hd hτ]; rfl

/-- C76 (what holds): a spot price alone needs no yield at its own date. -/
theorem C76_at_last_partial {D P : Type} [LinearOrder D] (cal : Cal D P) (pts : List (D × ℝ)) (i : Option FuncSpec)
    (o? : Option D) (o : D) (dc : DayCountArg D) (hp : GoodPoints pts (i.getD logLinearScheme) o)
    (ho : o?.or (pts.map Prod.fst).head? = some o) (hd : dc.Usable) (hτ : GoodDayCount (dc.fn cal)) (n : ℤ) :
    ∃ c c', ForwardCurve.new cal (pts.map Prod.fst) (pts.map Prod.snd) i o? dc (.int n) = .ok c ∧
      ForwardCurve.new cal (pts.map Prod.fst) (pts.map Prod.snd) i o? dc (.flat n) = .ok c' ∧
      ∀ T, T ≤ (pts.getLast hp.ne).1 → c.price cal T = c'.price cal T := by
  obtain ⟨c', b, hc', hb, hT, -⟩ := C27_flat cal pts i o? o dc hp ho hd hτ n
  refine ⟨⟨dateCurveOf (dc.fn cal) o o? dc i logLinearScheme pts, .function fun _ => .error .type⟩, c', ?_, hc',
    fun T h => ?_⟩
  · simp only [ForwardCurve.new]
    rw [base_new cal hp ho hd hτ]; rfl
  · rw [hT T h]
    rw [base_new cal hp ho hd hτ] at hb
    rw [← Except.ok.inj hb]
    have hlast : pyLast (dateCurveOf (dc.fn cal) o o? dc i logLinearScheme pts).domain =
      .ok (pts.getLast hp.ne).1 := last_map hp.ne
    simp [ForwardCurve.price, hlast, h]

/-- Hypotheses of C27 are met by two prices. -/
example : GoodPoints [((0 : ℝ), (100 : ℝ)), (1, 110)] ((none : Option FuncSpec).getD logLinearScheme) 0 :=
  ⟨by simp, by simp, by norm_num, by simp [logLinearScheme, FuncSpec.needsNonzero, Kind.isRate]⟩

/-! ### The hypotheses can be met: each theorem applied -/

theorem exPrices : GoodPoints [((0 : ℝ), (100 : ℝ)), (1, 110)] ((none : Option FuncSpec).getD logLinearScheme) 0 :=
  ⟨by simp, by simp, by norm_num, by simp [logLinearScheme, FuncSpec.needsNonzero, Kind.isRate]⟩

example := C27_discount floatCal _ none none 0 .default exPrices rfl trivial goodDayCount_real fun s t => .ok (Real.exp (-(t - s) / 50))
example := C27_function_partial floatCal _ none none 0 .default exPrices rfl trivial goodDayCount_real (fun t => Real.exp (-t / 50))
  fun t => (Real.exp_pos _).ne'
example := C74_same_last_partial floatCal [(0, 100), (1, 110), (2, 120)] [(1, 110), (0, 100), (2, 120)] (List.Perm.swap _ _ _) none 0 .default
  (by norm_num) (by norm_num) trivial goodDayCount_real (by simp) (.flat (2 / 100))
example := C76_int_yield_violated floatCal _ none none 0 .default exPrices rfl trivial goodDayCount_real 1
example := C76_at_last_partial floatCal _ none none 0 .default exPrices rfl trivial goodDayCount_real 1

end Dcf
