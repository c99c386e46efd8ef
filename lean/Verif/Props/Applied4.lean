import Verif.Props.Applied3
import Verif.Props.Sharing
import Verif.Props.Refine
import Verif.Props.Risk
import Verif.Props.SwapRisk
import Verif.Props.Text
import Verif.Props.Table

/-! # Theorems applied to concrete data: shared lists, refined curves -/

set_option linter.unusedSectionVars false
set_option linter.unusedSimpArgs false
set_option linter.unusedVariables false

namespace Dcf

open Spec

/-! ### Lists shared by curves and callers -/

/-- A curve with the dates 0, 1, 2 of the list object 0 and the origin 0. -/
noncomputable def exShared : SharedCurve ℝ :=
  ⟨.list 0, dateCurveOf (DayCountArg.fn floatCal .default) 0 (some 0) .default none linearScheme [((0 : ℝ), (1 : ℝ)), (1, 2), (2, 4)]⟩

theorem exShared_exists : Spec.Exists exHeap exShared.dates := fun a h => by cases h; exact one_pos

/-- A program with this curve. -/
noncomputable def exShelf : Store ℝ := ⟨exHeap, [exShared]⟩

/-- A second list is made and changed, a second curve built on it, summed up with the first one, and fixed. -/
def exActs : List (Act ℝ) := [.newList [1, 2], .build (.list 1) [5, 6] none none .default linearScheme, .write 1 [3], .combine (· + ·) 0 1, .fix 1 0 7]

theorem exActs_writes : ∀ act ∈ exActs, ¬ Spec.Writes 0 act := by simp [exActs, Spec.Writes]

theorem exActs_touches : ∀ act ∈ exActs, ¬ Spec.Touches 0 act := by simp [exActs, Spec.Touches]

example := C159_lists (cal := floatCal) exShelf exActs (a := 0) one_pos exActs_writes
example := C159_others (cal := floatCal) exShelf exActs (k := 0) (c := exShared) rfl exActs_touches exShared_exists
  (fun a ha => by cases ha; exact exActs_writes)
example := C159_values (cal := floatCal) (h := exHeap) (h' := exHeap.write 0 [5]) (c := exShared) rfl 1
example := C159_build (cal := floatCal) exHeap (.list 0) [1, 2, 4] none none .default linearScheme
example := C159_assign (cal := floatCal) exHeap exShared 3 5
example := C159_shift (cal := floatCal) exHeap exShared 1
example := C159_cast (cal := floatCal) exHeap exShared (.tuple [0, 1]) none none .default
example := C159_combine (cal := floatCal) (· + ·) (h := exHeap) (f := exShared) (g := exShared) exShared_exists exShared_exists (delta := 0)
  (by simp [originDiff, exShared, SharedCurve.view, dateCurveOf, DateCurve.origin, pyDate]) (.inl ⟨rfl, fun _ => rfl⟩)

/-- A date assigned to the curve, followed by other actions. -/
example : ∃ c' c'', (exShared.view exHeap).setitem floatCal 3 5 = .ok c' ∧
    (exShelf.run floatCal [.assign 0 3 5, .write 0 [9], .rebuild 0]).curves[0]? = some c'' ∧
    c''.view (exShelf.run floatCal [.assign 0 3 5, .write 0 [9], .rebuild 0]).heap = c' := by
  have hl : ((none : Option FuncSpec).getD linearScheme).isLog = false := rfl
  have hz : ((none : Option FuncSpec).getD linearScheme).needsNonzero = false := rfl
  have hn : (([((0 : ℝ), (1 : ℝ)), (1, 2), (2, 4)]).map Prod.fst).Nodup := by simp
  have hnew := DateCurve_new_eq floatCal none (some 0) .default linearScheme (pts := [((0 : ℝ), (1 : ℝ)), (1, 2), (2, 4)]) (o := 0) rfl trivial
    (timePts_nodup goodDayCount_real 0 hn) (by rw [hl]; simp)
  obtain ⟨c', h, -⟩ := C19_assign_date floatCal none linearScheme 0 .default trivial goodDayCount_real [((0 : ℝ), (1 : ℝ)), (1, 2), (2, 4)] [(3, 5)] hn
    (by rw [hl]; simp) (by rw [hz]; simp)
  have h' : (exShared.view exHeap).setitem floatCal 3 5 = .ok c' := by
    rw [exShared, view_self rfl]
    rw [hnew] at h
    simp only [List.foldlM_cons, List.foldlM_nil, Py.ok_bind] at h
    exact (bind_pure _).symm.trans h
  obtain ⟨c'', h1, h2⟩ := C159_assigned (cal := floatCal) exShelf (k := 0) (c := exShared) rfl h' [.write 0 [9], .rebuild 0] (by simp [Spec.Touches])
    (fun a act ha hw => by
      simp only [List.mem_cons, List.not_mem_nil, or_false] at ha
      rcases ha with rfl | rfl
      · cases hw; exact one_pos
      · cases hw)
  exact ⟨c', c'', h', h1, h2⟩

example := C159_rates (cal := dayCal) (c := irOf dayCal 0 none .default none .zero none [(0, 1 / 100), (730, 3 / 100)]) [0, 5] (.inr rfl)
example := C159_legs (h := ⟨fun _ => [], 0⟩) (h' := ⟨fun _ => [.list 1], 1⟩) (c := ⟨.tuple [.list 1, .list 2], [(0 : ℝ)], some 0⟩) rfl
example := C159_new_legs exWorld ⟨fun _ => [.list 1], 1⟩ (.list 0)

/-! ### Refined curves -/

/-- A line through two points and its value in between. -/
theorem exChord : ∃ f, Func.new linearScheme [0, 2] [1, 5] = .ok f ∧ f.call 0 = .ok (some 1) ∧ f.call 1 = .ok (some 3) ∧ f.call 2 = .ok (some 5) := by
  have hn : (([(0, 1), (2, 5)] : List (ℝ × ℝ)).map Prod.fst).Nodup := by norm_num
  have hst : sortPairs [((0 : ℝ), (1 : ℝ)), (2, 5)] = [(0, 1), (2, 5)] := sortPairs_eq_self (by simp [StrictX])
  refine ⟨_, Func_new_eq linearScheme hn (by simp [linearScheme, FuncSpec.isLog, Kind.isLog]), ?_, ?_, ?_⟩ <;>
    rw [funcOf_linear_call hn (by simp), hst] <;> norm_num [flin, chord]

example : ∃ f g, Func.new linearScheme [0, 2] [1, 5] = .ok f ∧ Func.new linearScheme [0, 1, 2] [1, 3, 5] = .ok g ∧ ∀ z, g.call z = f.call z := by
  obtain ⟨f, hf, h0, h1, h2⟩ := exChord
  obtain ⟨g, hg, h⟩ := C154_function (s := linearScheme) (by simp [Refinable, linearScheme]) (P := [(0, 1), (2, 5)]) (Q := [(0, 1), (1, 3), (2, 5)])
    (by simp) (by norm_num) (by simp [linearScheme, FuncSpec.isLog, Kind.isLog]) hf (by simp) (by simp [h0, h1, h2])
  exact ⟨f, g, hf, hg, h⟩

/-- The flat extrapolation after the last point is refined. -/
example : ∃ f g, Func.new zeroLinearScheme [1, 4] [1, 2] = .ok f ∧ Func.new zeroLinearScheme [1, 2, 4, 5] [1, 4 / 3, 2, 2] = .ok g ∧ ∀ z, g.call z = f.call z := by
  have hn : (([(1, 1), (4, 2)] : List (ℝ × ℝ)).map Prod.fst).Nodup := by norm_num
  obtain ⟨f, g, hf, hg, h⟩ := C15_zero_linear [(1, 1), (4, 2)] hn (by simp)
  have hst : sortPairs [((1 : ℝ), (1 : ℝ)), (4, 2)] = [(1, 1), (4, 2)] := sortPairs_eq_self (by simp [StrictX])
  have hc : ∀ x, g.call x = .ok (some (flin [(1, 1), (4, 2)] x)) := by
    intro x
    rw [linearScheme_new hn] at hg
    obtain rfl := Except.ok.inj hg
    have := linFunc_call (sortPairs_strict hn) (sortPairs_ne_nil (by simp)) x
    rw [hst] at this ⊢
    exact this
  have hv : ∀ x, 1 ≤ x → f.call x = .ok (some (flin [(1, 1), (4, 2)] x)) := fun x hx => by rw [(h x).2 ⟨(1, 1), by simp, hx⟩, hc]
  obtain ⟨g', hg', h'⟩ := C154_zero_linear (P := [(1, 1), (4, 2)]) (Q := [(1, 1), (2, 4 / 3), (4, 2), (5, 2)]) hn (by norm_num) hf (by simp)
    (by
      simp only [List.mem_cons, List.not_mem_nil, or_false, forall_eq_or_imp, forall_eq]
      refine ⟨?_, ?_, ?_, ?_⟩ <;> rw [hv _ (by norm_num)] <;> norm_num [flin, chord])
    (by
      simp only [List.mem_cons, List.not_mem_nil, or_false, forall_eq_or_imp, forall_eq]
      norm_num)
  exact ⟨f, g', hf, hg', h'⟩

example : ∃ (c c' : DateCurve ℤ), DateCurve.new dayCal [0, 730] [1, 3] none none .default linearScheme = .ok c ∧
    [365, 100].foldlM (fun c x => do DateCurve.setitem dayCal c x (← c.num dayCal x)) c = .ok c' ∧ 365 ∈ c'.domain ∧ ∀ z, c'.call dayCal z = c.call dayCal z := by
  have hl : ((none : Option FuncSpec).getD linearScheme).isLog = false := rfl
  have hn : (([(0, 1), (730, 3)] : List (ℤ × ℝ)).map Prod.fst).Nodup := by norm_num
  have hnew := DateCurve_new_eq dayCal none none .default linearScheme (pts := [(0, 1), (730, 3)]) (o := 0) rfl trivial
    (timePts_nodup goodDayCount_int 0 hn) (by rw [hl]; simp)
  obtain ⟨c', h1, h2, h3⟩ := C154_date_curve (cal := dayCal) (i := none) (dflt := linearScheme) (by simp [Refinable, linearScheme]) (dc := .default) trivial
    goodDayCount_int hn rfl (by rw [hl]; simp) hnew (xs := [365, 100]) fun x _ => by
      rw [dateCurveOf_call dayCal (o := 0) (o? := none) (dc := .default) rfl trivial]
      exact ⟨_, funcOf_linear_call (timePts_nodup goodDayCount_int 0 hn) (by simp [timePts]) _⟩
  exact ⟨_, c', hnew, h1, (h3 365).2 (.inr (by simp)), h2⟩

example : ∃ (c : CRCurve ℤ ℤ) (c' : RateCurve ℤ ℤ), CRCurve.new dayCal .flat [0, 730] [1 / 100, 3 / 100] none none .default none = .ok c ∧
    [365].foldlM (fun c x => do RateCurve.setitem dayCal c x (← c.call dayCal x)) c.toRateCurve = .ok c' ∧
    365 ∈ c'.base.domain ∧ ∀ z, c'.call dayCal z = c.call dayCal z := by
  have hn : (([(0, 1 / 100), (730, 3 / 100)] : List (ℤ × ℝ)).map Prod.fst).Nodup := by norm_num
  have hl : ((none : Option FuncSpec).getD CRClass.flat.dflt).isLog = false := rfl
  have hnew := (CRCurve_new_rate (cls := .flat) rfl _ _ _ _ _ _).trans (CRCurve_make_eq dayCal (pts := [(0, 1 / 100), (730, 3 / 100)]) (cls := .flat) (i := none)
    (o? := none) (o := 0) (dc := .default) (tenor := none) hn (by rw [hl]; simp) rfl trivial goodDayCount_int)
  obtain ⟨c', h1, h2, h3⟩ := C154_credit_curve (cal := dayCal) (cls := .flat) (i := none) (by simp [Refinable, CRClass.dflt, linearScheme]) (dc := .default) trivial
    goodDayCount_int hn rfl (by rw [hl]; simp) hnew (xs := [365]) fun x _ => ⟨_, crOf_linear dayCal (dc := .default) rfl rfl trivial goodDayCount_int hn (by simp) x⟩
  exact ⟨_, c', hnew, h1, (h3 365).2 (.inr (by simp)), h2⟩

/-! ### Risk -/

section
theorem exFlatRate : (flatZero floatCal none .default none 0 (5 / 100)).toRateCurve.base.origin = some 0 := by
  simp [flatZero, irOf, dateCurveOf, DateCurve.origin]

example := C139_buckets (c := (flatZero floatCal none .default none 0 (5 / 100)).toRateCurve)
  (w := exWorld) (disc := 0) (same := false) (cal := floatCal) (o := 0) (p := .list 1) (G := [0, 2, 4]) (shift := 1 / 100)
  (grid := some [0, 2, 4]) goodDayCount_real goodDayCount_real rfl
  (fun s t => rfl) rfl exFlatRate (exPays rfl) (fun φ => exPays rfl)
  (df := fun t => Real.exp (-(5 / 100 * (t - 0)))) (fun q _ => exDf 0 q.1) rfl (by simp) (by norm_num) (by norm_num)
example := C139_local (c := (flatZero floatCal none .default none 0 (5 / 100)).toRateCurve)
  (w := exWorld) (disc := 0) (same := false) (cal := floatCal) (o := 0) (p := .list 1) (G := [0, 2, 4]) (shift := 1 / 100)
  (grid := some [0, 2, 4]) goodDayCount_real goodDayCount_real rfl
  (fun s t => rfl) rfl exFlatRate (exPays rfl) (fun φ => exPays rfl)
  (df := fun t => Real.exp (-(5 / 100 * (t - 0)))) (fun q _ => exDf 0 q.1) rfl (by simp) (by norm_num) (by norm_num) (exPays rfl) (fun φ => exPays rfl)
  (fun q _ => exDf 0 q.1)
end

example : ∃ (w : World ℝ FloatPeriod) (p : Product ℝ) (x y : ℝ), ∀ shift ≠ 0, ∃ z z',
    pvOn floatCal 0 false (some 0) p w = (.ok x, w) ∧ basisPointValue floatCal 0 false p (some 0) none shift w = (.ok z, w) ∧
    basisPointValue floatCal 0 false p (some 0) (some [0, 1]) shift w = (.ok z', w) := by
  obtain ⟨w, dom, oo, hw, hc⟩ := exSwap (1 / 50) 1
  obtain ⟨df, hF⟩ := Factors.zero (flatZero_answers 0.03) rfl
  have b1 : Bumpable [0] w := ⟨by simp, by simp [hc, IRCurve.obj, flatZero, irOf], by simp [hc, IRCurve.obj, (flatZero_answers 0.03).origin]⟩
  have b2 : Bumpable [0, 1] w := ⟨by simp, by simp [hc, IRCurve.obj, flatZero, irOf], by simp [hc, IRCurve.obj, (flatZero_answers 0.03).origin]⟩
  refine ⟨w, .legs [.list 0, .list 1] dom oo, _, 0, fun shift h0 => ⟨_, _, C150_value (fun _ _ => .error .value) (flatZero_answers 0.03) hF (by simp [flatZero, irOf]) hF
      (T := fun i => (i : ℝ)) (S := fun i => (i : ℝ)) (n := 5) (k := 5) (by simp) (by simp) (by simp) (by simp) rfl
      (by simp [flatZero, irOf, floatCal]) (dc := .none) (rdc := .none) (g := floatCal.dayCount) (rg := floatCal.dayCount) rfl rfl
      (fun _ _ => rfl) (sameF := fun _ => false) (by simp) hw (hc 1) (hc 0) (by simp) (by simp),
    C150_risk (fun _ _ => .error .value) (flatZero_answers 0.03) hF rfl rfl (flatZero_answers 0.03) hF rfl rfl (T := fun i => (i : ℝ))
      (S := fun i => (i : ℝ)) (n := 5) (k := 5) (by simp) (by simp) (by simp) (by simp) rfl
      (by simp [flatZero, irOf, floatCal]) (dc := .none) (rdc := .none) (g := floatCal.dayCount) (rg := floatCal.dayCount) rfl rfl
      (fun _ _ => rfl) (sameF := fun _ => false) (by simp) hw (hc 1) (hc 0) (by simp) (by simp) (delta := none) b1 h0,
    C150_single (fun _ _ => .error .value) (flatZero_answers 0.03) hF rfl rfl (T := fun i => (i : ℝ))
      (S := fun i => (i : ℝ)) (n := 5) (k := 5) (by simp) (by simp) (by simp) (by simp) rfl
      (by simp [flatZero, irOf, floatCal]) (dc := .none) (rdc := .none) (g := floatCal.dayCount) (rg := floatCal.dayCount) rfl rfl
      (fun _ _ => rfl) (sameF := fun _ => false) (by simp) hw (hc 1) (hc 0) (by simp) (by simp) (delta := some [0, 1]) b2 (by simp) (by simp) h0⟩⟩

/-! ### Texts -/

/-- A list of three numbers. -/
example : ∃ l : CFList ℝ FloatPeriod, CFList.ofPayoffs [0, 1, 2] [.fixed (-100), .fixed 5, .fixed 105] none (.fwd .none) false = .ok l ∧
    l.repr 10 .fixed = .ok ⟨[0, 1, 2], [.num (-100), .num 5, .num 105], none⟩ ∧ l.str 10 .fixed = .ok ⟨[0, 2], [.num (-100), .num 105], none⟩ := by
  obtain ⟨l, hl⟩ : ∃ l : CFList ℝ FloatPeriod, CFList.ofPayoffs [0, 1, 2] [.fixed (-100), .fixed 5, .fixed 105] none (.fwd .none) false = .ok l := ⟨_, rfl⟩
  exact ⟨l, hl, C151_repr hl (by norm_num) (by simp) rfl rfl, C151_str hl (by norm_num) (by simp) (by simp) rfl rfl⟩

/-- A floating leg. -/
example : ∃ l : CFList ℝ FloatPeriod, CFList.newRate floatCal (fun _ _ => .error .value) [1, 2] (.list [100, 50]) (some 0) .none .none .none (1 / 100) .none = .ok l ∧
    l.repr 1 .rate = .ok ⟨[1, 2], [.num 100, .num 50], some 0⟩ := by
  obtain ⟨l, hl⟩ : ∃ l : CFList ℝ FloatPeriod, CFList.newRate floatCal (fun _ _ => .error .value) [1, 2] (.list [100, 50]) (some 0) .none .none .none (1 / 100) .none = .ok l := ⟨_, rfl⟩
  exact ⟨l, hl, ((C151_amounts (dates := [1, 2]) (as := [100, 50]) (cal := floatCal) (back := fun _ _ => .error .value) 0 (by norm_num) (by simp) (by simp) rfl).1 _ _ _ _ _ hl).1⟩

example := C151_curve (call := fun x : ℝ => .ok (2 * x)) (domain := [0, 1, 4]) (v := fun x => 2 * x) (by simp) (fun _ _ => rfl)
example := C151_curve_error (call := fun x : ℝ => if x = 1 then .error .value else .ok x) (domain := [0, 1, 4]) (d := 1) (by simp) (e := .value) (if_pos rfl)
example := C151_points (cal := dayCal) (cls := .zero) (pts := [(0, 1 / 100), (730, 3 / 100)]) (i := none) (o? := none) (o := 0) (dc := .default) (tenor := none) (by norm_num) (by simp) rfl trivial
  goodDayCount_int (by rw [show ((none : Option FuncSpec).getD IRClass.zero.dflt).isLog = false from rfl]; simp)
  (by rw [show ((none : Option FuncSpec).getD IRClass.zero.dflt).needsNonzero = false from rfl]; simp)

end Dcf
