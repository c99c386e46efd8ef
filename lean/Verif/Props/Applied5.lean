import Verif.Props.Applied4
import Verif.Props.Yield
import Verif.Props.VolRisk
import Verif.Props.Portfolio
import Verif.Props.NativeDates
import Verif.Props.YearFractions
import Verif.Props.VolShift
import Verif.Props.VolShape
import Verif.Props.VolArith
import Verif.Props.Session
import Verif.Props.Derived

/-! # Theorems applied to concrete data: yields, year fractions, portfolios, volatilities -/

set_option linter.unusedSectionVars false
set_option linter.unusedSimpArgs false
set_option linter.unusedVariables false

namespace Dcf

open Spec

/-! ### Yields -/

/-- A flow of 110 in one year. -/
noncomputable def exZeroBond : World ℝ FloatPeriod := { exWorld with
  lists := fun _ => ⟨none, [1], .ofPairs [(1, .num 110)], .fwd fun _ => .none, false, false, false⟩ }

theorem exZeroBond_pays : Pays floatCal exZeroBond 0 (.list 0) [(1, 110)] := by
  refine ⟨[[(1, 110)]], ?_, by simp⟩
  rw [Product.leaves]
  refine .cons ⟨fun h => absurd h (by simp [exZeroBond]), fun _ => 110, ?_, by simp [exZeroBond, List.filter]⟩ .nil
  intro d hd _
  have : d = 1 := by simpa [exZeroBond] using hd
  subst this
  simp [World.list, World.dated, exZeroBond, CFList.getitem, Dict.ofPairs, Dict.get, Dict.set, PayOff.eval]

theorem exZeroBond_value (y : ℝ) : yieldValue (DayCountArg.fn floatCal .default) 0 [(1, 110)] y = Real.exp (-y) * 110 := by
  simp [yieldValue, DayCountArg.fn, floatCal]

theorem exZeroBond_ytm : ∃ (n : ℕ) (r : ℝ),
    ytm floatCal n true none none .default none (.list 0) (some 0) 100 (1 / 10000000) (-1 / 10) (2 / 10) exZeroBond = (.ok r, exZeroBond) := by
  have h1 : 110 * Real.exp (-(2 / 10)) ≤ 100 := by
    have := Real.add_one_le_exp (2 / 10 : ℝ)
    rw [Real.exp_neg]
    rw [← div_eq_mul_inv, div_le_iff₀ (Real.exp_pos _)]
    linarith
  have h2 : 100 ≤ 110 * Real.exp (-(-1 / 10)) := by
    have := Real.add_one_le_exp (-(-1 / 10) : ℝ)
    linarith
  obtain ⟨n, hn⟩ := C58_exists (cal := floatCal) (o? := none) (dc := .default) (tenor := none) (same := true) (v := (0 : ℝ))
    (valuation := some 0) (target := 100) (precision := 1 / 10000000) (lo := -1 / 10) (hi := 2 / 10) trivial
    goodDayCount_real (by simp) rfl exZeroBond_pays (by norm_num) (by
      rw [exZeroBond_value, exZeroBond_value]
      apply mul_nonpos_of_nonneg_of_nonpos <;> linarith)
  exact ⟨n + 1, hn _ n.lt_succ_self⟩

example : ∃ (n : ℕ) (r : ℝ), ytm floatCal n true none none .default none (.list 0) (some 0) 100 (1 / 10000000) (-1 / 10) (2 / 10) exZeroBond = (.ok r, exZeroBond) ∧
    r ∈ Set.uIcc (-1 / 10 : ℝ) (2 / 10) ∧ |Real.exp (-r) * 110 - 100| < 1 / 10000000 ∧ |Real.log (11 / 10) - r| < 1 / 10000000 / 2 := by
  obtain ⟨n, r, h⟩ := exZeroBond_ytm
  have h1 := C58_reprices (dc := .default) trivial goodDayCount_real (by simp) rfl exZeroBond_pays h
  have h2 := C58_price (dc := .default) trivial goodDayCount_real (by simp) rfl exZeroBond_pays (by simp) h
  have hx : pv floatCal (flatZero floatCal none .default none 0 (Real.log (11 / 10))).obj true (some 0) (.list 0) exZeroBond = (.ok 100, exZeroBond) := by
    rw [C54_flows exZeroBond_pays (df := fun t => Real.exp (-(Real.log (11 / 10) * t))) fun q hq => by
      have := flatZero_factor floatCal (o? := none) (dc := .default) (tenor := none) trivial goodDayCount_real 0 (Real.log (11 / 10)) true 0 q.1 (by simp)
      have e : DayCountArg.fn floatCal .default 0 q.1 = q.1 := sub_zero _
      rw [e] at this
      exact this]
    simp only [List.map_cons, List.map_nil, List.sum_cons, List.sum_nil, mul_one]
    rw [← Real.log_inv, Real.exp_log (by norm_num)]
    norm_num
  have h3 := C58_roundtrip (dc := .default) trivial goodDayCount_real (by simp) rfl exZeroBond_pays (by simp) (by simp)
    (flatZero_new floatCal (o? := none) (dc := .default) (tenor := none) trivial goodDayCount_real 0 (Real.log (11 / 10))) hx h
  refine ⟨n, r, h, h1.2.1, ?_, h3⟩
  simpa [DayCountArg.fn, floatCal] using h2

/-- No yield between 10 and 20 percent. -/
example : ytm floatCal 100 true none none .default none (.list 0) (some 0) 100 (1 / 10000000) (1 / 10) (2 / 10) exZeroBond = (.error .assertion, exZeroBond) := by
  have h : 110 * Real.exp (-(1 / 10)) < 100 := by
    have := Real.add_one_lt_exp (x := (1 / 10 : ℝ)) (by norm_num)
    rw [Real.exp_neg, ← div_eq_mul_inv, div_lt_iff₀ (Real.exp_pos _)]
    linarith
  have h' : Real.exp (-(2 / 10)) ≤ Real.exp (-(1 / 10)) := Real.exp_le_exp.2 (by norm_num)
  refine (C58_refuses (cal := floatCal) (dc := .default) trivial goodDayCount_real (by simp) rfl exZeroBond_pays (by norm_num) _ _ _ _).2 (.inr ?_)
  rw [exZeroBond_value, exZeroBond_value]
  constructor <;> linarith

example := C58_no_date (cal := floatCal) (p := .list 0) (w := { exZeroBond with lists := fun _ => ⟨none, [], .ofPairs [], .fwd fun _ => .none, false, false, false⟩ }) (same := true) (o? := none) (dc := .default) (tenor := none) rfl 100 none 100 (1 / 10000000) (-1 / 10) (2 / 10)

/-! ### Year fractions for dates, day numbers for dates -/

example := C163_curves (cal := dayCal) years_ok.1 years_ok.2 (cls := .zero) (.inl rfl) [0, 365] [1 / 100, 2 / 100] none none (some 90) none
example := C163_credit_curves (cal := dayCal) years_ok.1 years_ok.2 (cls := .flat) (.inl rfl) [0, 365] [1 / 100, 2 / 100] none none (some 90) none
example := C163_volatility_curves (cal := dayCal) years_ok.1 years_ok.2 none [0, 365] [1 / 100, 2 / 100] none none (some 90) none
example : ∃ (φ : ℤ → ℝ) (l : CFList ℤ ℤ) (l' : CFList ℝ FloatPeriod),
    CFList.newRate dayCal (fun _ _ => .error .value) [365] (.scalar 100) (some 0) none none none (1 / 100) .none = .ok l ∧
    CFList.newRate floatCal (fun _ _ => .error .value) [φ 365] (.scalar 100) (some (φ 0)) none none none (1 / 100) .none = .ok l' ∧
    ∀ d, l'.getitem floatCal (φ d) = l.getitem dayCal d := by
  have hl := newRate_eq (cal := dayCal) (back := fun _ _ => .error .value) (amounts := .scalar 100) (dc := none) (fo := none) (c := 1 / 100)
      (f := .none) (starts := [0]) (o := some 0) (po := none) (sh := id) (dates := [365]) rfl rfl (fun d h => rfl) rfl (by norm_num)
  obtain ⟨l', h1, -, -, h2⟩ := C163_rate_lists (cal := dayCal) years_ok.1 years_ok.2 (fun _ _ => .error .value) (fun _ _ => .error .value) hl
  exact ⟨fun t => (t : ℝ) / (36525 / 100), _, l', hl, h1, h2⟩

example : ∃ (φ : ℤ → ℝ) (c : IRCurve ℤ ℤ) (c' : IRCurve ℝ FloatPeriod) (x : ℝ),
    IRCurve.new dayCal .zero [0] [1 / 100] none none .default none = .ok c ∧
    IRCurve.new floatCal .zero [φ 0] [1 / 100] none none .default none = .ok c' ∧
    (pvOn dayCal 0 false (some 0) (.list 0) (oneFlow c.obj 1461)).1 = .ok x ∧
    (pvOn floatCal 0 false (some (φ 0)) (.list 0) (oneFlow c'.obj (φ 1461))).1 = .ok x := by
  have hu : (DayCountArg.default : DayCountArg ℤ).Usable := by simp [DayCountArg.Usable]
  have h1 := flatZero_new dayCal (o? := none) (tenor := none) hu goodDayCount_int 0 (1 / 100)
  have h2 := flatZero_new floatCal (o? := none) (dc := .default) (tenor := none) trivial goodDayCount_real (((0 : ℤ) : ℝ) / (36525 / 100)) (1 / 100)
  have := C163_present_values years_ok.1 years_ok.2 (.inl rfl) (origin := none) h1 h2 (w := oneFlow _ 1461) (w' := oneFlow _ (((1461 : ℤ) : ℝ) / (36525 / 100))) (disc := 0) (disc' := 0) rfl rfl
    (v := 0) (flows := [(1461, 7)]) (oneFlow_pays _ (by norm_num)) (oneFlow_pays _ (years_ok.2.monotone (by norm_num))) false
    (df := fun t => Real.exp (-(1 / 100 * DayCountArg.fn dayCal .default 0 t)))
    fun q _ => flatZero_factor dayCal (o? := none) (tenor := none) hu goodDayCount_int 0 (1 / 100) false 0 q.1 (by simp)
  exact ⟨fun t => (t : ℝ) / (36525 / 100), _, _, _, h1, h2, this⟩

/-! ### Portfolios -/

theorem exDeltas : ∃ ds : List ℝ, bucketedDelta floatCal 0 false (.list 1) (some 0) none (some [0, 2, 4]) (1 / 100) exWorld = (.ok ds, exWorld) ∧ ds.length = 3 := by
  obtain ⟨ds, h1, h2, -⟩ := C139_buckets (c := (flatZero floatCal none .default none 0 (5 / 100)).toRateCurve)
    (w := exWorld) (disc := 0) (same := false) (cal := floatCal) (o := 0) (p := .list 1) (G := [0, 2, 4]) (shift := 1 / 100)
    (grid := some [0, 2, 4]) goodDayCount_real goodDayCount_real rfl
    (fun s t => rfl) rfl exFlatRate (exPays rfl) (fun φ => exPays rfl)
    (df := fun t => Real.exp (-(5 / 100 * (t - 0)))) (fun q _ => exDf 0 q.1) rfl (by simp) (by norm_num) (by norm_num)
  exact ⟨ds, h1, h2⟩

example : ∃ zs, bucketedDelta floatCal 0 false (.legs [.list 1, .list 1] [1, 3] none) (some 0) none (some [0, 2, 4]) (1 / 100) exWorld = (.ok zs, exWorld) ∧
    zs.length = 3 ∧ ∃ ys, bucketedDelta floatCal 0 false (.list 1) (some 0) none (some [0, 2, 4]) (1 / 100) exWorld = (.ok ys, exWorld) := by
  obtain ⟨ds, h1, h2⟩ := exDeltas
  obtain ⟨zs, h3, h4, -⟩ := C156_deltas (cal := floatCal) (ps := [.list 1, .list 1]) (by simp) (ds := fun _ => ds) (fun p hp => by
    obtain rfl : p = .list 1 := by simpa using hp
    exact h1) [1, 3] none
  exact ⟨zs, h3, by rw [← h4 (.list 1) (by simp), h2], C156_deltas_legs h3 (by simp)⟩

example : ∃ z y, basisPointValue floatCal 0 false (.legs [.list 1, .list 1] [1, 3] none) (some 0) none (1 / 100) exWorld = (.ok z, exWorld) ∧
    basisPointValue floatCal 0 false (.list 1) (some 0) none (1 / 100) exWorld = (.ok y, exWorld) := by
  obtain ⟨z, h1, -⟩ : ∃ z, basisPointValue floatCal 0 false (.list 1) (some 0) none (1 / 100) exWorld = (.ok z, exWorld) ∧ z < 0 := by
    refine C61_sign (c := (flatZero floatCal none .default none 0 (5 / 100)).toRateCurve) goodDayCount_real rfl
      (fun s t => rfl) rfl (by simp [exFlatRate]) (exPays rfl) (exPays rfl)
      (df := fun t => Real.exp (-(5 / 100 * (t - 0)))) (fun q _ => exDf 0 q.1) (by norm_num) ?_ ⟨(1, 1), by simp, by norm_num⟩
    simp
  have h := C156_bpv (cal := floatCal) (ps := [.list 1, .list 1]) (by simp) (z := fun _ => z) (fun p hp => by
    obtain rfl : p = .list 1 := by simpa using hp
    exact h1) [1, 3] none
  obtain ⟨y, hy⟩ := C156_bpv_legs h (p := .list 1) (by simp)
  exact ⟨_, y, h, hy⟩

/-! ### Volatilities -/

example : ∃ w : World ℝ FloatPeriod, ∀ shift > 0, ∃ z > 0,
    basisPointValue floatCal 0 false (.list 0) (some 0) (some [1]) shift w = (.ok z, w) := by
  obtain ⟨w, h, h1, h0⟩ := exOptions .terminal (normalFormula exactDist) 1
  exact ⟨w, fun shift hs => C146_normal h h1 (exVol_answers .terminal).1 rfl rfl hs (F := fun _ => 112) (by norm_num)
    (fun d _ _ => .num (by norm_num)) (by simp) (by simp)
    (df := fun t => Real.exp (-(5 / 100 * (t - 0)))) (fun d _ _ => ⟨by rw [h0]; exact exDf 0 d, Real.exp_pos _⟩) (by norm_num) ⟨1, by simp⟩⟩

theorem exNormal_price (d : ℝ) (hd : d ∈ [(1 : ℝ), 2]) {v : ℝ} (hv : 0 < v) :
    ∃ p, (normalFormula exactDist).price (.ok (floatCal.dayCount 0 (id d))) 100 112 v = .ok p := by
  have : 0 < floatCal.dayCount 0 (id d) := by
    simp only [List.mem_cons, List.not_mem_nil, or_false] at hd
    rcases hd with rfl | rfl <;> simp [floatCal]
  exact ⟨_, normal_price exactDist this hv.ne' 100 112⟩

example : ∃ (w : World ℝ FloatPeriod) (x y z : ℝ), pvOn floatCal 0 false (some 0) (.list 0) w = (.ok x, w) ∧
    basisPointValue floatCal 0 false (.list 0) (some 0) (some [1]) (1 / 100) w = (.ok y, w) ∧
    basisPointValue floatCal 0 false (.list 0) (some 0) none (1 / 100) w = (.ok z, w) := by
  obtain ⟨w, h, h1, h0⟩ := exOptions .terminal (normalFormula exactDist) 1
  have hv := (exVol_answers .terminal).1
  have hp : ∀ d, d ∈ [(1 : ℝ), 2] → ∃ p, (normalFormula exactDist).price (.ok (floatCal.dayCount 0 (id d))) 100 112 (1 / 5) = .ok p :=
    fun d hd => exNormal_price d hd (by norm_num)
  have hp' : ∀ d, d ∈ [(1 : ℝ), 2] → ∃ p, (normalFormula exactDist).price (.ok (floatCal.dayCount 0 (id d))) 100 112 (1 / 5 + 1 / 100) = .ok p :=
    fun d hd => exNormal_price d hd (by norm_num)
  choose! pr hpr using hp
  choose! pr' hpr' using hp'
  have hne : ∀ d ∈ [(1 : ℝ), 2], (0 : ℝ) ≤ d → id d ≠ 0 := by norm_num
  have hdf : ∀ d ∈ [(1 : ℝ), 2], (0 : ℝ) ≤ d → (w.curves 0).discountFactor floatCal false 0 d = .ok (Real.exp (-(5 / 100 * (d - 0)))) := fun d _ _ => by
    rw [h0]; exact exDf 0 d
  have hσ : ∀ d ∈ [(1 : ℝ), 2], (0 : ℝ) ≤ d → (exVol .terminal).terminalVol floatCal true 1 (id d) none = .ok (1 / 5) ∧ (1 / 5 : ℝ) ≠ 0 :=
    fun d hd _ => ⟨hv.call d, by norm_num⟩
  refine ⟨w, _, _, _, C146_value h h1 hv.dayCount (σ := fun _ => 1 / 5) (F := fun _ => 112) hσ (fun d _ _ => .num (by norm_num))
      (fun d hd h => by simpa [floatCal] using hne d hd h) (fun d hd _ => hpr d hd) hdf,
    C146_vega h h1 hv rfl rfl (F := fun _ => 112) (by norm_num) (by norm_num) (fun d _ _ => .num (by norm_num)) hne (fun d hd _ => hpr d hd)
      (fun d hd _ => hpr' d hd) (by simp) hdf,
    C146_discount h h1 hv.dayCount (σ := fun _ => 1 / 5) (F := fun _ => 112) hσ (fun d _ _ => .num (by norm_num))
      (fun d hd h => by simpa [floatCal] using hne d hd h) (fun d hd _ => hpr d hd) (by simp)
      (rc := (flatZero floatCal none .default none 0 (5 / 100)).toRateCurve) goodDayCount_real (by rw [h0]; rfl) (fun s t => rfl) rfl (by simp [exFlatRate]) hdf (by norm_num)⟩

/-- Volatilities of 10 and 20 percent, shifted by 10 days. -/
example : ∃ c c' : VolCurve ℤ ℤ, VolCurve.new dayCal .terminal none [0, 1000] [0.1, 0.2] none none .default none = .ok c ∧ c.shifted dayCal true 1 10 = .ok c' ∧
    c'.base.domain = [10, 1010] ∧ ∀ x ∈ c.base.domain, c'.call dayCal (x + 10) = c.call dayCal (x + 10) := by
  obtain ⟨c', h1, h2⟩ := C144_shift (cal := dayCal) (c := exSmile .terminal none 0.1 0.2) (by simp [exSmile, volOf, dateCurveOf]) (by simp [exSmile, volOf, dateCurveOf]) trivial
    goodDayCount_int true 0 (δ := 10) fun x _ => (exSmile_answers .terminal none 0.1 0.2).1.call _
  exact ⟨_, c', exSmile_new .terminal none 0.1 0.2, h1, (C144_fields h1).2.2.1, h2⟩

/-- Rising volatilities: forward volatilities above the later one. -/
example : ∃ a, (exSmile .terminal none 0.1 0.2).terminalVol dayCal true 1 100 (some 200) = .ok a ∧ (0.12 : ℝ) ≤ a := by
  have h := (exSmile_answers .terminal none 0.1 0.2).1
  obtain ⟨a, ha⟩ := (C44_defined h rfl rfl true 0 (s := 100) (t := 200) (by norm_num) (by norm_num)).2 (by
    rw [exSmile_value _ _ (by norm_num) (by norm_num), exSmile_value _ _ (by norm_num) (by norm_num), exSmile_count, exSmile_count]; norm_num)
  have := (C141_between h rfl rfl true 0 (s := 100) (t := 200) (by norm_num) (by norm_num) (by rw [exSmile_value _ _ (by norm_num) (by norm_num)]; norm_num)
    (by rw [exSmile_value _ _ (by norm_num) (by norm_num)]; norm_num) ha).1
  rw [exSmile_value _ _ (by norm_num) (by norm_num), exSmile_value _ _ (by norm_num) (by norm_num)] at this
  refine ⟨a, ha, le_trans (by norm_num) (this.1 (by norm_num))⟩

example : ∃ f g S m, VolOperands dayCal (· - 1) (· + 1) (· + 3652) .terminal none [((0 : ℤ), (0.2 : ℝ)), (365, 0.3)] [(365, 0.1)] 0 (some 0)
    (some 0) none none f g ∧ f.binop dayCal (· * ·) true 1 g = .ok S ∧ VolResult dayCal (· - 1) (· + 1) (· + 3652) (· * ·) 0 m f g S := by
  obtain ⟨f, g, h⟩ := exVolOperands .terminal [((0 : ℤ), (0.2 : ℝ)), (365, 0.3)] [(365, 0.1)] (by simp) (by simp) (by simp) (by simp)
  obtain ⟨S, m, h1, h2⟩ := C143_grid h (· * ·) true 0
  exact ⟨f, g, S, m, h, h1, h2⟩

/-! ### Dates, values, sessions -/

example : ∃ (c : IRCurve ℤ ℤ) (c' : IRCurve ℤ NativePeriod) (x : ℝ),
    IRCurve.new dayCal .zero [0] [1 / 100] none none .default none = .ok c ∧
    IRCurve.new nativeCal .zero [0] [1 / 100] none none .default none = .ok c' ∧
    (pvOn dayCal 0 false (some 0) (.list 0) (oneFlow c.obj 1461)).1 = .ok x ∧
    (pvOn nativeCal 0 false (some 0) (.list 0) (oneFlow c'.obj 1461)).1 = .ok x := by
  have hu : (DayCountArg.default : DayCountArg ℤ).Usable := by simp [DayCountArg.Usable]
  have h1 := flatZero_new dayCal (o? := none) (tenor := none) hu goodDayCount_int 0 (1 / 100)
  obtain ⟨c', h2⟩ := (C164_interest_rate_curves (cal := dayCal) (φ := id) exDayNumbers strictMono_id (cls := .zero) (.inl rfl) [0] [1 / 100] none none none none).2 _ h1
  have := C164_present_values (φ := id) exDayNumbers strictMono_id (.inl rfl) (origin := none) h1 h2.1 (w := oneFlow _ 1461) (w' := oneFlow _ 1461) (disc := 0) (disc' := 0) rfl rfl
    (v := 0) (flows := [(1461, 7)]) (oneFlow_pays _ (by norm_num)) (oneFlow_pays _ (by norm_num)) false
    (df := fun t => Real.exp (-(1 / 100 * DayCountArg.fn dayCal .default 0 t)))
    fun q _ => flatZero_factor dayCal (o? := none) (tenor := none) hu goodDayCount_int 0 (1 / 100) false 0 q.1 (by simp)
  exact ⟨_, _, _, h1, h2.1, this⟩

example : ∃ c', DateCurve.resample dayCal [0, 100] (exDatePoints none) (some logLinearScheme) none .default = .ok c' ∧ c'.interp = some logLinearScheme := by
  have hv := exDatePoints_call none rfl
  have hnew := DateCurve_new_eq dayCal (some logLinearScheme) none .default linearScheme (pts := [(0, ((0 : ℤ) : ℝ) + 2), (100, ((100 : ℤ) : ℝ) + 2)]) (o := 0) rfl trivial
    (timePts_nodup goodDayCount_int 0 (by simp)) (by norm_num)
  have h : DateCurve.resample dayCal [0, 100] (exDatePoints none) (some logLinearScheme) none .default =
      .ok (dateCurveOf (DayCountArg.fn dayCal .default) 0 none .default (some logLinearScheme) linearScheme [(0, ((0 : ℤ) : ℝ) + 2), (100, ((100 : ℤ) : ℝ) + 2)]) := by
    have hm : pyMap ((exDatePoints none).num dayCal) [0, 100] = .ok [((0 : ℤ) : ℝ) + 2, ((100 : ℤ) : ℝ) + 2] := pyMap_ok (f := (exDatePoints none).num dayCal) (g := fun x : ℤ => (x : ℝ) + 2) (l := [0, 100]) fun x hx => by
      show (do pyNum (← (exDatePoints none).call dayCal x)) = _
      rw [hv x hx]; rfl
    rw [DateCurve.resample, hm]
    exact hnew
  exact ⟨_, h, (C127_date_given hv logLinearScheme h).1⟩

/-- A spot of 100 growing at 5%, shifted by ten days. -/
example : ∃ c c' : ForwardCurve ℤ, ForwardCurve.spot dayCal 100 none 0 .default (.flat (5 / 100)) = .ok c ∧ c.shifted dayCal 10 = .ok c' ∧ c'.base.domain = [10] := by
  have hτ : GoodDayCount dayCal.dayCount := goodDayCount_int
  have hp : GoodPoints [((0 : ℤ), (100 : ℝ))] ((none : Option FuncSpec).getD logLinearScheme) 0 :=
    ⟨by simp, by simp, fun _ => by simp, by simp [logLinearScheme, FuncSpec.needsNonzero, Kind.isRate]⟩
  obtain ⟨c, b, hc, hb, h1, h2⟩ := C27_flat dayCal [(0, 100)] none (some 0) 0 .default hp rfl trivial hτ (5 / 100)
  have hbase : c.base = b := by
    simp only [ForwardCurve.new] at hc
    rw [hb, Py.ok_bind] at hc
    split_ifs at hc
    · rw [← Except.ok.inj hc]
    · rw [← Except.ok.inj hc]
  have hf := DateCurve_new_fields dayCal hb
  have hdom : c.base.domain = [0] := by rw [hbase, hf.1]; rfl
  have hdc : c.base.dc.kwarg = .default := by rw [hbase, hf.2.2.1]; rfl
  obtain ⟨c', h3, -⟩ := C127_forward_values (cal := dayCal) (c := c) (by rw [hdom]; simp) (by rw [hdc]; trivial) (by rw [hdc]; exact hτ)
    (by rw [hbase, hf.2.2.2.1]) (δ := 10) (u := fun x => 100 * Real.exp (5 / 100 * dayCal.dayCount 0 x)) (fun x hx => by
      rw [hdom] at hx
      obtain rfl : x = 0 := by simpa using hx
      simpa [DayCountArg.fn] using h2 (0 + 10) (by simp)) (fun x _ => by positivity) (d := 0) (by rw [hdom]; rfl) (fun x hx => by
      rw [hdom] at hx
      obtain rfl : x = 0 := by simpa using hx
      exact le_rfl)
  exact ⟨c, c', hc, h3, by rw [(C127_forward_shift h3).1, hdom]; rfl⟩

/-- Flat default intensities cast with another origin. -/
example : ∃ c d : CRCurve ℤ ℤ, CRCurve.cast dayCal .flat 1 (fun _ => false) c none (some 7) .default none = .ok d ∧ d.base.origin = some 7 := by
  have h : (crOf dayCal 0 none .default none .flat none [(0, 0.01), (200, 0.02)]).castOn dayCal .flat 1 (fun _ => false) (sortedSet ([0, 200] ++ [565])) none (some 7) .default none = _ :=
    own_castOn (cal := dayCal) goodDayCount_int (cls := .flat) (o := 0) (o? := none) (pts := [(0, 0.01), (200, 0.02)]) rfl (plain_own (.inr (.inr (.inl rfl))) none)
      (fun y _ => crOf_linear dayCal rfl rfl (dc := .default) trivial goodDayCount_int (by simp) (by simp) y) (by simp [CRClass.isProb])
      ((sortedSet_strict _).imp fun h => h.ne) (o' := 7) rfl 0 _
  have h' : CRCurve.cast dayCal .flat 1 (fun _ => false) (crOf dayCal 0 none .default none .flat none [(0, 0.01), (200, 0.02)]) none (some 7) .default none =
      (crOf dayCal 0 none .default none .flat none [(0, 0.01), (200, 0.02)]).castOn dayCal .flat 1 (fun _ => false) (sortedSet ([0, 200] ++ [565])) none (some 7) .default none := by
    simp only [CRCurve.cast, CRClass.isProb, Bool.false_eq_true, if_false]
    rw [maxDate_eq (m := 200) (by simp [crOf, dateCurveOf]) (by simp [crOf, dateCurveOf]), Py.ok_bind, show dayCal.add 200 dayCal.oneYear = .ok 565 from rfl, Py.ok_bind]
    rfl
  exact ⟨_, _, h'.trans h, C93_credit_partial (cal := dayCal) rfl (h'.trans h)⟩

/-- The table of a date curve. -/
example : ∃ (xs : List ℤ) (ys : List ℤ) (rows : _), (exDatePoints none).table dayCal = .ok (ys, rows) ∧ xs.head? = some 0 ∧ ∀ x, x ∈ xs ↔ x = 0 ∨ x ∈ [(0 : ℤ), 100] := by
  obtain ⟨xs, ys, rows, h1, h2, h3, -⟩ := C110_curve_partial (cal := dayCal) (c := exDatePoints none)
    (v := fun x => some (flin (sortPairs (timePts (DayCountArg.fn dayCal .default) 0 [((0 : ℤ), (2 : ℝ)), (100, 102)])) (DayCountArg.fn dayCal .default 0 x)))
    (fun x => by
      exact (dateCurveOf_call dayCal (o := 0) (o? := none) (dc := .default) rfl trivial (x := x)).trans
        (funcOf_linear_call (timePts_nodup goodDayCount_int 0 (by simp)) (by simp [timePts]) _))
    (by simp [exDatePoints, dateCurveOf]) (o := 0) rfl (by simp [exDatePoints, dateCurveOf]) ⟨100, by simp [exDatePoints, dateCurveOf], by norm_num⟩
  exact ⟨xs, ys, rows, h1, h2, h3⟩

/-- Lists of flows: the second the first without past flows, the fourth the sum of the first twice and the third. -/
noncomputable def exPaid : World ℝ FloatPeriod := { exWorld with
  lists := fun
    | 0 => ⟨none, [0, 1, 2], .ofPairs [(0, .num 5), (1, .num 7), (2, .num 100)], .fwd fun _ => .none, false, false, false⟩
    | 1 => ⟨none, [1, 2], .ofPairs [(1, .num 7), (2, .num 100)], .fwd fun _ => .none, false, false, false⟩
    | 2 => ⟨none, [1, 2], .ofPairs [(1, .num 3), (2, .num 4)], .fwd fun _ => .none, false, false, false⟩
    | _ => ⟨none, [1, 2], .ofPairs [(1, .num 17), (2, .num 204)], .fwd fun _ => .none, false, false, false⟩ }

example := C54_past (cal := floatCal) (c := exWorld.curves 0) (same := false) (v := 1) (a := 0) (a' := 1) (w := exPaid) (fun h => absurd h (by simp [exPaid]))
  (fun h => absurd h (by simp [exPaid])) (by simp [exPaid, List.filter]) (fun d hd hv => by
    simp only [exPaid, List.mem_cons, List.not_mem_nil, or_false] at hd
    rcases hd with rfl | rfl | rfl
    · norm_num at hv
    · simp [World.list, World.dated, exPaid, CFList.getitem, Dict.ofPairs, Dict.get, Dict.set, PayOff.eval]
    · simp [World.list, World.dated, exPaid, CFList.getitem, Dict.ofPairs, Dict.get, Dict.set, PayOff.eval])

theorem exPaid_pays (a : ℕ) (u v : ℝ) (h : exPaid.lists a = ⟨none, [1, 2], .ofPairs [(1, .num u), (2, .num v)], .fwd fun _ => .none, false, false, false⟩) :
    Pays floatCal exPaid 1 (.list a) [(1, u), (2, v)] := by
  refine ⟨[[(1, u), (2, v)]], ?_, by simp⟩
  rw [Product.leaves]
  refine .cons ⟨fun h' => absurd h' (by simp [h]), fun d => if d = 1 then u else v, ?_, by simp [h, List.filter]⟩ .nil
  intro d hd _
  simp only [h, List.mem_cons, List.not_mem_nil, or_false] at hd
  rcases hd with rfl | rfl <;> simp [World.list, World.dated, h, CFList.getitem, Dict.ofPairs, Dict.get, Dict.set, PayOff.eval]

example : ∃ x y, pv floatCal (exWorld.curves 0) false (some 1) (.list 1) exPaid = (.ok x, exPaid) ∧ pv floatCal (exWorld.curves 0) false (some 1) (.list 2) exPaid = (.ok y, exPaid) ∧
    pv floatCal (exWorld.curves 0) false (some 1) (.list 3) exPaid = (.ok (2 * x + 1 * y), exPaid) := by
  have h1 := C54_flows (c := exWorld.curves 0) (exPaid_pays 1 7 100 rfl) (df := fun t => Real.exp (-(5 / 100 * (t - 1)))) fun q _ => exDf 1 q.1
  have h2 := C54_flows (c := exWorld.curves 0) (exPaid_pays 2 3 4 rfl) (df := fun t => Real.exp (-(5 / 100 * (t - 1)))) fun q _ => exDf 1 q.1
  refine ⟨_, _, h1, h2, C54_linear (a₃ := 3) h1 h2 (fun h => absurd h (by simp [exPaid])) rfl rfl ?_⟩
  intro d hd hv y₁ y₂
  simp only [exPaid, List.mem_cons, List.not_mem_nil, or_false] at hd
  rcases hd with rfl | rfl <;> simp [World.list, World.dated, exPaid, CFList.getitem, Dict.ofPairs, Dict.get, Dict.set, PayOff.eval] <;>
    rintro rfl rfl <;> norm_num

example : ∃ (d : List ℝ) (o : Option ℝ) (cf : CF ℝ FloatPeriod) (x : ℝ) (df fl : ℝ → ℝ), CF.newLegs (exPaid.products [.list 1, .list 2]) = .ok cf ∧
    pv floatCal (exWorld.curves 0) false (some 1) (.legs [.list 1, .list 2] d o) exPaid = (.ok x, exPaid) ∧
      x = ((cf.domain.filter (1 ≤ ·)).map fun t => df t * fl t).sum := by
  obtain ⟨cf, -, hcf, -⟩ := C47_origin (ls := exPaid.products [.list 1, .list 2]) (by simp [World.products]) (by
    simp [World.products, World.product, CF.origin, CFList.origin, World.list, exPaid])
  obtain ⟨o, rfl, -⟩ := CF.newLegs_eq hcf
  obtain ⟨L₁, h₁, -⟩ := exPaid_pays 1 7 100 rfl
  obtain ⟨L₂, h₂, -⟩ := exPaid_pays 2 3 4 rfl
  have hx := C54_flows (c := exWorld.curves 0) (w := exPaid) (p := .legs [.list 1, .list 2] (sortedSet ((exPaid.products [.list 1, .list 2]).map CF.domain).flatten) o) (v := 1)
    (df := fun t => Real.exp (-(5 / 100 * (t - 1)))) ⟨L₁ ++ L₂, List.rel_append h₁ h₂, rfl⟩ fun q _ => exDf 1 q.1
  obtain ⟨df, fl, -, h⟩ := C47_present_value hcf rfl (by
    simp only [World.products, List.mem_cons, List.not_mem_nil, or_false, forall_eq_or_imp, forall_eq, World.product]
    refine ⟨.flat fun d => ?_, .flat fun d => ?_⟩ <;>
      simp [World.list, exPaid, Dict.ofPairs, Dict.get, Dict.set, eq_comm (a := d)] <;> split_ifs <;> simp_all) (by simp [Product.leavesOf, Product.leaves, World.list, exPaid]) (by simp [Product.leavesOf, Product.leaves, World.dated, exPaid]) hx
  exact ⟨_, _, _, _, df, fl, hcf, hx, h⟩

example := C161_valuations (cal := floatCal) (w := exWorld) (w' := { exWorld with models := fun a => { exWorld.models a with valuation := some 3 } }) exSettled rfl rfl
  (fun a => ⟨_, rfl⟩) (.presentValue (.list 2) 0 false (some 1))

example : ∃ x, ∀ w', (PriceCall.presentValue (.list 1) 0 false (some 0)).run floatCal exWorld = (.ok x, w') → w' = exWorld := by
  obtain ⟨x, hx⟩ := exPv
  exact ⟨[x], fun w' h => C161_success (by simp [Spec.searches]) h⟩

example := C55_failing_discount (cal := floatCal) (c := { (exWorld.curves 0) with kind := .credit .survival }) (same := false) (v := 2) (a := 0) (w := exWorld)
  (fun h => absurd h (by simp [exWorld])) (fun d hd hv => by
    simp only [exWorld, List.mem_cons, List.not_mem_nil, or_false] at hd
    rcases hd with rfl | rfl | rfl
    · norm_num at hv
    · norm_num at hv
    · simp [World.list, World.dated, exWorld, CFList.getitem, Dict.ofPairs, Dict.get, Dict.set, PayOff.eval])

end Dcf
