import Verif.Props.PresentValue
import Verif.Props.RateCast
import Verif.Props.Table
import Verif.Props.VolCurve
import Verif.Props.VolPeriods
import Verif.Props.VolRisk
import Verif.Props.Yield

/-! # Theorems on volatilities, tables, values and yields applied to given data -/

set_option linter.unusedSectionVars false
set_option linter.unusedSimpArgs false
set_option linter.unusedVariables false

namespace Dcf

open Spec

/-! ### Volatility curves -/

/-- Two volatilities, linear in between. -/
noncomputable def exSmile (cls : VolClass) (floor : Option ℝ) (a b : ℝ) : VolCurve ℤ ℤ :=
  volOf dayCal 0 none .default none cls floor none [(0, a), (1000, b)]

theorem exSmile_answers (cls : VolClass) (floor : Option ℝ) (a b : ℝ) :
    VolAnswers dayCal (exSmile cls floor a b) (linVal (DayCountArg.fn dayCal .default) 0 [(0, a), (1000, b)]) (DayCountArg.fn dayCal .default) 0 ∧
    TimeFunction (exSmile cls floor a b).toRateCurve (flin (sortPairs (timePts (DayCountArg.fn dayCal .default) 0 [(0, a), (1000, b)]))) :=
  volOf_answers (by simp) (by simp) rfl trivial goodDayCount_int

theorem exSmile_new (cls : VolClass) (floor : Option ℝ) (a b : ℝ) :
    VolCurve.new dayCal cls floor [0, 1000] [a, b] none none .default none = .ok (exSmile cls floor a b) :=
  VolCurve_new_eq (cal := dayCal) (o := 0) (dc := .default) (pts := [(0, a), (1000, b)]) (by simp)
    (by cases cls <;> simp [VolClass.dflt, linearScheme, FuncSpec.isLog, Kind.isLog]) rfl trivial goodDayCount_int

theorem exSmile_value (a b : ℝ) {d : ℤ} (h0 : 0 < d) (h1 : d ≤ 1000) :
    linVal (DayCountArg.fn dayCal .default) 0 [(0, a), (1000, b)] d = a + (b - a) / 1000 * d := by
  have h0' : (0 : ℝ) < d := by exact_mod_cast h0
  have h1' : (d : ℝ) ≤ 1000 := by exact_mod_cast h1
  have hs : sortPairs (timePts (DayCountArg.fn dayCal .default) 0 [((0 : ℤ), a), (1000, b)]) = [((0 : ℝ), a), (1000 / (36525 / 100), b)] := by
    rw [sortPairs_eq_self]
    · simp [timePts, DayCountArg.fn, dayCal]
    · simp [StrictX, timePts, DayCountArg.fn, dayCal]
  show flin (sortPairs (timePts (DayCountArg.fn dayCal .default) 0 [((0 : ℤ), a), (1000, b)])) (DayCountArg.fn dayCal .default 0 d) = _
  rw [hs]
  have e : DayCountArg.fn dayCal .default 0 d = (d : ℝ) / (36525 / 100) := by simp [DayCountArg.fn, dayCal]
  rw [e]
  have hpos : 0 < (d : ℝ) / (36525 / 100) := by positivity
  have hle : (d : ℝ) / (36525 / 100) ≤ 1000 / (36525 / 100) := by gcongr
  simp only [flin, Spec.chord, not_le.2 hpos, if_false, hle, if_true]
  field_simp
  ring

theorem exSmile_count (s t : ℤ) : DayCountArg.fn dayCal .default s t = ((t - s : ℤ) : ℝ) / (36525 / 100) := by
  simp [DayCountArg.fn, dayCal]

/-- Rising volatilities: the variances of adjacent periods add up. -/
example : ∃ a b w, (exSmile .terminal none 0.1 0.2).terminalVol dayCal true 1 100 (some 200) = .ok a ∧
    (exSmile .terminal none 0.1 0.2).terminalVol dayCal true 1 200 (some 500) = .ok b ∧
    (exSmile .terminal none 0.1 0.2).terminalVol dayCal true 1 100 (some 500) = .ok w ∧
    a ^ 2 * (100 / (36525 / 100)) + b ^ 2 * (300 / (36525 / 100)) = w ^ 2 * (400 / (36525 / 100)) := by
  have h := (exSmile_answers .terminal none 0.1 0.2).1
  obtain ⟨a, ha⟩ := (C44_defined h rfl rfl true 0 (s := 100) (t := 200) (by norm_num) (by norm_num)).2 (by
    rw [exSmile_value _ _ (by norm_num) (by norm_num), exSmile_value _ _ (by norm_num) (by norm_num), exSmile_count, exSmile_count]; norm_num)
  obtain ⟨b, hb⟩ := (C44_defined h rfl rfl true 0 (s := 200) (t := 500) (by norm_num) (by norm_num)).2 (by
    rw [exSmile_value _ _ (by norm_num) (by norm_num), exSmile_value _ _ (by norm_num) (by norm_num), exSmile_count, exSmile_count]; norm_num)
  obtain ⟨w, hw⟩ := (C44_defined h rfl rfl true 0 (s := 100) (t := 500) (by norm_num) (by norm_num)).2 (by
    rw [exSmile_value _ _ (by norm_num) (by norm_num), exSmile_value _ _ (by norm_num) (by norm_num), exSmile_count, exSmile_count]; norm_num)
  refine ⟨a, b, w, ha, hb, hw, ?_⟩
  have := C44_additive h rfl rfl true 0 (s := 100) (t := 200) (u := 500) (by norm_num) (by norm_num) (by norm_num) ha hb hw
  rw [exSmile_count, exSmile_count, exSmile_count] at this
  norm_num at this ⊢
  exact this

/-- Falling volatilities: no forward volatility without floor, the floor with one. -/
example : (exSmile .terminal none 0.5 0.1).terminalVol dayCal true 1 500 (some 1000) = .error .zeroDivision ∧
    (exSmile .terminal (some 0.05) 0.5 0.1).terminalVol dayCal true 1 500 (some 1000) = .ok 0.05 := by
  have hlt : DayCountArg.fn dayCal .default 0 1000 * linVal (DayCountArg.fn dayCal .default) 0 [((0 : ℤ), (0.5 : ℝ)), (1000, 0.1)] 1000 ^ 2 <
      DayCountArg.fn dayCal .default 0 500 * linVal (DayCountArg.fn dayCal .default) 0 [((0 : ℤ), (0.5 : ℝ)), (1000, 0.1)] 500 ^ 2 := by
    rw [exSmile_value _ _ (by norm_num) (by norm_num), exSmile_value _ _ (by norm_num) (by norm_num), exSmile_count, exSmile_count]; norm_num
  refine ⟨(C45_no_floor_partial (exSmile_answers .terminal none 0.5 0.1).1 rfl rfl true 0 (by norm_num) (by norm_num)).1 hlt, ?_⟩
  obtain ⟨a, h1, h2, h3, h4⟩ := C45_floor_partial (exSmile_answers .terminal (some 0.05) 0.5 0.1).1 rfl rfl (by norm_num) true 0 (s := 500) (t := 1000)
    (by norm_num) (by norm_num)
  rw [h1, h3 hlt]

example := C45_day (exSmile_answers .terminal none 0.5 0.1).1 rfl true 0 (s := 500) (e := 501) (by norm_num) rfl
example := C80_average_partial (exSmile_answers .instantaneous none 0.5 0.1).1 rfl (exSmile_answers .instantaneous none 0.5 0.1).2 0 (s := 100) (t := 200)
  (by norm_num)
example : (exVol .instantaneous).terminalVol floatCal true 0 1 (some 2) = .ok (1 / 5) :=
  C80_flat_partial (exVol_answers .instantaneous).1 rfl (exVol_answers .instantaneous).2 0 (by norm_num)
example := C80_points_violated (cal := dayCal) (a := 0) (b := 1000) (by norm_num) (y := 0.2) (z := 0.3) (by norm_num) (dc := .default) trivial
  goodDayCount_int 0
example : ∃ S : VolCurve ℤ ℤ, VolCurve.cast dayCal .terminal none true 3 (exSmile .terminal none 0.5 0.1) none none .default none = .ok S ∧
    1000 ∈ S.base.domain := by
  have h := (exSmile_answers .terminal none 0.5 0.1).1
  obtain ⟨S, h1, -, -, h2, -⟩ := C81_terminal (c := exSmile .terminal none 0.5 0.1) (cal := dayCal) (o := 0) (a := 1) (m := 1000) (b := 1000 + 3652)
    (dc := .default) (tenor := none) (o? := none) h.origin (by simp [dayCal]) rfl trivial rfl goodDayCount_int rfl (by simp [exSmile, volOf, dateCurveOf])
    (by simp [exSmile, volOf, dateCurveOf]) rfl true 3 none (fun x _ => by
      rw [C113_from_origin h.origin, C113_reversed_violated h.origin rfl]
      exact h.call x)
  exact ⟨S, h1, (h2 1000).2 (.inl (by simp [exSmile, volOf, dateCurveOf]))⟩
example := C113_empty (cal := dayCal) (exSmile_answers .terminal none 0.5 0.1).1.origin true 0 (t := 7) (by norm_num)

/-- With and without scipy. -/
example : ∃ c : RateCurve ℤ ℤ, c.integrate dayCal true 3 10 = .ok 0.02 ∧ c.integrate dayCal false 3 10 = .ok 0.02 ∧
    ({ c with spread := some fun _ => .ok (some 0.001) } : RateCurve ℤ ℤ).integrate dayCal false 3 10 = .ok (0.02 + 0.001) := by
  let c : RateCurve ℤ ℤ := (flatZero dayCal none .default none 0 0.02).toRateCurve
  have hg : TimeFunction c fun _ => (0.02 : ℝ) := ⟨fun x => by
    have := funcOf_linear_call (pts := timePts (DayCountArg.fn dayCal .default) 0 [((0 : ℤ), (0.02 : ℝ))]) (by simp [timePts]) (by simp [timePts]) x
    refine this.trans ?_
    simp [timePts, sortPairs, flin]⟩
  have ho : c.base.origin = some 0 := rfl
  have hd : ∀ s e, c.base.dayCount dayCal s e = .ok (DayCountArg.fn dayCal .default s e) := fun s e => DayCountArg.eval_eq dayCal (d := .default) trivial s e
  have hs := dayCal_steps 1 3
  have hr : ∃ m : ℕ, (10 : ℤ) ≤ (fun k : ℕ => 3 + (k : ℤ) * 1) (m + 1) := ⟨6, by norm_num⟩
  have h := C82_flat_partial hg ho rfl rfl hd goodDayCount_int (s := 3) (t := 10) (by norm_num) hs hr
  have h' := C82_spread_violated (c := { c with spread := some fun _ => .ok (some 0.001) }) (r := 0.02) (z := 0.001) ⟨hg.call⟩ ho rfl rfl (by norm_num) hd
    goodDayCount_int (s := 3) (t := 10) (by norm_num) hs hr
  exact ⟨c, h.1, h.2, h'.2.1⟩

example := C82_float_violated (c := (exVol .instantaneous).toRateCurve) (exVol_answers .instantaneous).2 (o := 0) rfl
  (fun s e => (exVol_answers .instantaneous).1.dayCount s e) (exVol_answers .instantaneous).1.good (s := 1) (t := 2) (by norm_num)

/-! ### Tables -/

example := C110_partial (f := fun x : ℤ => .ok (x + 1)) (v := fun x => x + 1) (fun _ => rfl) [3, 4, 8] (ys := [0, 1, 4]) (by decide) (by decide) (by decide)
example := C110_default_partial (f := fun x : ℤ => .ok (x + 1)) (v := fun x => x + 1) (fun _ => rfl) (xs := [3, 4, 8]) (by decide) (by decide)

/-! ### Present values -/

theorem exPays0 : PaysList floatCal exWorld 1 0 [(1, 7), (2, 100)] :=
  ⟨fun h => absurd h (by simp [exWorld]), fun d => if d = 1 then 7 else 100, fun d hd hv => by
    simp only [exWorld, List.mem_cons, List.not_mem_nil, or_false] at hd
    rcases hd with rfl | rfl | rfl
    · norm_num at hv
    · simp [World.list, World.dated, exWorld, CFList.getitem, Dict.ofPairs, Dict.get, Dict.set, PayOff.eval]
    · simp [World.list, World.dated, exWorld, CFList.getitem, Dict.ofPairs, Dict.get, Dict.set, PayOff.eval], by
    simp [exWorld, List.filter]⟩

example := C54_default (cal := floatCal) (c := exWorld.curves 0) (o := 0) rfl false (.list 0)
example := C54_today (cal := floatCal) (c := exWorld.curves 0) rfl (by decide) true 3
example : ∃ xs, List.Forall₂ (fun a y => pv floatCal (exWorld.curves 0) false (some 1) (.list a) exWorld = (.ok y, exWorld)) [0] xs := by
  have h := C54_flows (p := .list 0) (w := exWorld) (L := [(1, 7), (2, 100)]) ⟨[_], by rw [Product.leaves]; exact .cons exPays0 .nil, by simp⟩
    (df := fun t => Real.exp (-(5 / 100 * (t - 1)))) (fun q _ => exDf 1 q.1)
  obtain ⟨-, xs, h1, -⟩ := C54_nested h
  rw [Product.leaves] at h1
  exact ⟨xs, h1⟩

end Dcf
